import Verif.Model.Trig
import Verif.Model.Consts
import Verif.Model.AtanTable

/-!
# Model of the inverse circular functions (src/math/circular_fns/atan.rs, approx_atan.rs, asin_acos.rs)

and of the parts of `FP492` and `BigFloat` that only they use. `none` stands for a panic.
The exponents of `BigFloat` are unbounded integers: the `i32` arithmetic on them does not overflow for the values that
occur. Not modelled: the shifts and the truncation of `BigFloat`.
-/

namespace Verif

open BigUInt

namespace FP492

/-- src/math/fp509.rs:150-163; `FRAC_1_OVER_256_HI_TZ` (lines 23) is 100. The first component is taken as a number that
is not bounded, it is less than 2^28. -/
def divmod1Over256 (x : FP492) : Nat × FP492 × FP492 :=
  if signum x = 0 then (0, x, x)
  else
    let x := if signum x = -1 then iabs x else x
    let q := x.hi.hi >>> 100
    let c : FP492 := ⟨⟨q <<< 100, 0#128⟩, ⟨0#128, 0#128⟩⟩
    (q.toNat, c, sub x c)

/-- `DivAssign`, src/math/fp509.rs:350-366 -/
def div (x y : FP492) : Option FP492 := do
  let n : U1024 := UInt.shl (⟨UInt.zero, x⟩ : U1024) 492
  let tie := UInt.shr y 1
  let (quot, rem) ← UInt.divRemSubuintSpecial n y
  let quot := BigUInt.incrIf quot (BigUInt.gt rem tie || (BigUInt.beq rem tie && BigUInt.isOdd quot))
  return quot.lo

/-- `From<&FP492> for BigFloat`, src/math/fp509.rs:198-228 -/
def toBigFloat (v : FP492) : BigFloat :=
  let s := signum v
  let a := if 0 ≤ s then v else ineg v
  let nlz := UInt.leadingZeros a
  let exp : Int := 19 - (nlz : Int)
  if nlz ≤ 256 then
    let a := UInt.roundingDivPow2 a (257 - nlz)
    let sh := 1 - UInt.leadingZeros a.lo
    ⟨s, exp + sh, UInt.shr a.lo sh⟩
  else if nlz = 257 then ⟨s, exp, a.lo⟩
  else if nlz ≤ 511 then ⟨s, exp, (UInt.shl a (nlz - 257)).lo⟩
  else BigFloat.ZERO

end FP492

namespace BigFloat

/-- src/math/big_float.rs:90-91 -/
def SIGNIF_ONE : U256 := ⟨1#128 <<< 126, 0#128⟩

/-- src/math/big_float.rs:102-106 -/
def ONE : BigFloat := ⟨1, 0, SIGNIF_ONE⟩

/-- src/math/big_float.rs:131-138 -/
def PI : BigFloat := new 1 1 0x6487ed5110b4611a62633145c06e0e68 0x948127044533e63a0105df531d89cd91

/-- src/math/big_float.rs:141-148 -/
def FRAC_PI_2 : BigFloat := new 1 0 0x6487ed5110b4611a62633145c06e0e68 0x948127044533e63a0105df531d89cd91

/-- src/math/big_float.rs:56-77 -/
def divSignifs (x y : U256) : Option (U256 × Int) := do
  let adj : Int := if BigUInt.lt x y then 1 else 0
  let quot : U256 := ⟨(if adj = 0 then 1#128 else 0#128) <<< 126, 0#128⟩
  let (_, rem) ← BigUInt.divRem x y
  let (q, r) ← UInt.divRemSubuintSpecial (UInt.shl (UInt.ofSub rem) 254) y
  let quot ← UInt.add quot q.lo
  let quot := BigUInt.incrIf quot (BigUInt.gt r (UInt.shr y 1))
  let nlz := BigUInt.leadingZeros quot.hi
  return (UInt.shl quot (u32Sub nlz 1), adj)

/-- src/math/big_float.rs:422-432 -/
def div (x y : BigFloat) : Option BigFloat :=
  if y.isZero then none
  else if x.signum = 0 then some x
  else do
    let (s, adj) ← divSignifs x.signif y.signif
    return ⟨x.signum * y.signum, x.exp - (y.exp + adj), s⟩

/-- src/math/big_float.rs:434-438 -/
def recip (x : BigFloat) : Option BigFloat := div ONE x

/-- src/math/big_float.rs:346-353 -/
def abs (x : BigFloat) : BigFloat := ⟨x.signum.natAbs, x.exp, x.signif⟩

/-- src/math/big_float.rs:585-587 -/
def square (x : BigFloat) : BigFloat := mul x x

/-- The loop of src/math/big_float.rs:603-617, structurally recursive in the number of remaining iterations -/
def sqrtLoop : Nat → U256 → U512 → U256 → Option (U256 × U512)
  | 0, q, r, _ => some (q, r)
  | n + 1, q, r, s =>
    if BigUInt.isZero r then some (q, r)
    else do
      let s := UInt.shr s 1
      let t := UInt.shl r 1
      let u ← UInt.add (UInt.shl (UInt.ofSub q) 1) (UInt.ofSub s)
      if BigUInt.lt t u then sqrtLoop n q t s
      else do
        let q ← UInt.add q s
        let r ← UInt.sub t u
        sqrtLoop n q r s

/-- src/math/big_float.rs:590-623 -/
def sqrt (x : BigFloat) : Option BigFloat :=
  if x.signum = 0 then some x
  else do
    let odd := x.exp % 2
    let exp := (x.exp - odd) / 2
    let q := UInt.shl SIGNIF_ONE 1
    let r ← UInt.sub (UInt.shl (UInt.ofSub x.signif) (1 + odd.toNat)) (UInt.ofSub q)
    let (q, r) ← sqrtLoop 255 q r q
    let bits := (q.lo &&& 3#128).toNat
    let q := BigUInt.incrIf q (decide (bits = 3) || (decide (bits = 1) && !BigUInt.isZero r))
    return ⟨1, exp, UInt.shr q 1⟩

/-- `From<&BigFloat> for f256`, src/math/big_float.rs:646-683 -/
def toF256 (x : BigFloat) : F256 :=
  if x.isZero then F256.ZERO
  else
    let bits : U256 :=
      if x.exp ≤ EMIN - 237 then UInt.zero
      else if x.exp < EMIN then UInt.roundingDivPow2 x.signif (18 + (EMIN - x.exp)).toNat
      else if x.exp ≤ EMAX then
        let (bits, rem) := UInt.wideningShr x.signif 18
        let bits : U256 := ⟨bits.hi + (BitVec.ofNat 128 (EXP_BIAS + (x.exp - 1)).toNat <<< 108), bits.lo⟩
        if BigUInt.gt rem TIE || (BigUInt.beq rem TIE && BigUInt.isOdd bits.lo) then UInt.incr bits else bits
      else F256.INFINITY.bits
    ⟨⟨bits.hi ||| (boolU128 (decide (x.signum < 0)) <<< 127), bits.lo⟩⟩

/-- `PartialOrd`, src/math/big_float.rs:853-862 -/
def cmp (x y : BigFloat) : Ordering :=
  (compare x.signum y.signum).then ((compare x.exp y.exp).then (UInt.cmp x.signif y.signif))

end BigFloat

namespace Trig

/-- src/math/circular_fns/approx_atan.rs:2044-2072 -/
def approxAtan (x : FP492) : Option FP492 := do
  let a := FP492.iabs x
  let (q, c, y) := FP492.divmod1Over256 a
  let t := FP492.add (FP492.imulRound a c) FP492.ONE
  let y ← FP492.div y t
  let y2 := FP492.imulRound y y
  let atan := FP492.imulRound (hornerAll atanCoeffs y2) y
  let tab ← ATANS[q]?
  let atan := FP492.add atan tab
  return if FP492.isSignNegative x then FP492.ineg atan else atan

/-- src/math/circular_fns/atan.rs:21-24 -/
def ATAN_LARGE_CUT_OFF : U256 := U256.new (BitVec.ofNat 128 (EXP_BIAS + SIGNIFICAND_BITS) <<< HI_FRACTION_BITS) 0

/-- src/math/circular_fns/atan.rs:28-33 -/
def ATAN_SMALL_CUT_OFF : U256 := U256.new 0x3ff89250bfe1b082f4f9b8d4ce85ca7f 0xcf68624f8a91d242f267bb52b5b4432a

/-- src/math/circular_fns/asin_acos.rs:21-26 -/
def FP_FRAC_PI_2' : FP492 := FP492.new 0x00001921fb54442d18469898cc51701b 0x839a252049c1114cf98e804177d4c762
  0x73644a29410f31c6809bbdf2a33679a7 0x48636605614dbe4be286e9fc26adadaa

/-- src/math/circular_fns/asin_acos.rs:27-32 -/
def FP_NEG_FRAC_PI_2 : FP492 := FP492.new 0xffffe6de04abbbd2e7b9676733ae8fe4 0x7c65dadfb63eeeb306717fbe882b389d
  0x8c9bb5d6bef0ce397f64420d5cc98658 0xb79c99fa9eb241b41d791603d9525256

/-- src/math/circular_fns/asin_acos.rs:33-38 -/
def FP_FRAC_PI_4' : FP492 := FP492.new 0x00000c90fdaa22168c234c4c6628b80d 0xc1cd129024e088a67cc74020bbea63b1
  0x39b22514a08798e3404ddef9519b3cd3 0xa431b302b0a6df25f14374fe1356d6d5

/-- src/math/circular_fns/asin_acos.rs:39-44 -/
def FP_NEG_FRAC_PI_4 : FP492 := FP492.new 0xfffff36f0255dde973dcb3b399d747f2 0x3e32ed6fdb1f77598338bfdf44159c4e
  0xc64ddaeb5f78671cbfb22106ae64c32c 0x5bce4cfd4f5920da0ebc8b01eca9292b

/-- src/math/circular_fns/asin_acos.rs:47-61 -/
def atanBig (x : BigFloat) : Option FP492 :=
  let a := BigFloat.abs x
  match BigFloat.cmp a BigFloat.ONE with
  | .lt => approxAtan (FP492.fromBigFloat x)
  | .gt => do
    let xr ← BigFloat.recip x
    let r ← approxAtan (FP492.fromBigFloat xr)
    return FP492.sub (if x.signum < 0 then FP_NEG_FRAC_PI_2 else FP_FRAC_PI_2') r
  | .eq => some (if x.signum < 0 then FP_NEG_FRAC_PI_4 else FP_FRAC_PI_4')

/-- src/math/circular_fns/asin_acos.rs:65-70 -/
def ASIN_SMALL_CUT_OFF : U256 := U256.new 0x3ff89713765fce269de05bbe5d2df6f0 0xb6f406126cab80a1f5eca809c5595b15

/-- `x / √(1 - x²)`, src/math/circular_fns/asin_acos.rs:100-101 and 125-126 -/
def asinArg (f : F256) : Option BigFloat := do
  let x := BigFloat.fromF256 f
  let d ← BigFloat.sub BigFloat.ONE (BigFloat.square x)
  let s ← BigFloat.sqrt d
  BigFloat.div x s

end Trig

namespace F256

open Trig

/-- src/math/circular_fns/atan.rs:39-71 -/
def atan (x : F256) : Option F256 :=
  let a := absBits x
  if HI_EXP_MASK < (a.hi ||| boolU128 (decide (a.lo ≠ 0))) then some NAN
  else if ATAN_LARGE_CUT_OFF.hi ≤ a.hi then
    some ⟨⟨Consts.FRAC_PI_2.bits.hi ^^^ signBitsHi x, Consts.FRAC_PI_2.bits.lo⟩⟩
  else if BigUInt.le a ATAN_SMALL_CUT_OFF then some x
  else if BigUInt.lt a ONE.bits then do
    let r ← approxAtan (FP492.fromF256 x)
    return FP492.toF256 r
  else if BigUInt.gt a ONE.bits then do
    let xr ← BigFloat.recip (BigFloat.fromF256 x)
    let r ← approxAtan (FP492.fromBigFloat xr)
    let s ← BigFloat.sub (if x.sign = 0 then BigFloat.FRAC_PI_2 else BigFloat.neg BigFloat.FRAC_PI_2)
      (FP492.toBigFloat r)
    return BigFloat.toF256 s
  else some (if x.sign = 0 then Consts.FRAC_PI_4 else Consts.FRAC_PI_4.negated)

/-- The results for special operands, src/math/circular_fns/atan.rs:91-121 -/
def atan2Special (y x : F256) (stickyX stickyY : BitVec 128) : Option F256 :=
  if HI_EXP_MASK < (if stickyX ≤ stickyY then stickyY else stickyX) then some NAN
  else if stickyX = 0 then
    if stickyY = 0 then some ZERO
    else some ⟨⟨Consts.FRAC_PI_2.bits.hi ||| signBitsHi y, Consts.FRAC_PI_2.bits.lo⟩⟩
  else if stickyY = 0 then some (if x.sign = 0 then ZERO else Consts.PI)
  else if y.sign = 0 then
    if x.sign = 0 then some Consts.FRAC_PI_4 else F256.sub Consts.PI Consts.FRAC_PI_4
  else if x.sign = 0 then some Consts.FRAC_PI_4.negated else F256.sub Consts.FRAC_PI_4 Consts.PI

/-- src/math/circular_fns/atan.rs:80-146; `y` is `self` and `x` is `other` -/
def atan2 (y x : F256) : Option F256 := do
  let ax := absBits x
  let ay := absBits y
  if anySpecial2 (absBitsSticky ax) (absBitsSticky ay) then
    atan2Special y x (absBitsSticky ax) (absBitsSticky ay)
  else
    let signQ := (y.sign + x.sign) % 2
    let half := if signQ = 0 then BigFloat.FRAC_PI_2 else BigFloat.neg BigFloat.FRAC_PI_2
    let atan ←
      if BigUInt.lt ay ax then do
        let q ← BigFloat.div (BigFloat.fromF256 y) (BigFloat.fromF256 x)
        let r ← approxAtan (FP492.fromBigFloat q)
        pure (FP492.toBigFloat r)
      else if BigUInt.gt ay ax then do
        let q ← BigFloat.div (BigFloat.fromF256 x) (BigFloat.fromF256 y)
        let r ← approxAtan (FP492.fromBigFloat q)
        BigFloat.sub half (FP492.toBigFloat r)
      else pure half
    let atan ←
      if x.sign = 0 then pure atan
      else if y.sign = 0 then BigFloat.add atan BigFloat.PI
      else BigFloat.sub atan BigFloat.PI
    return BigFloat.toF256 atan

/-- src/math/circular_fns/asin_acos.rs:84-103 -/
def asin (x : F256) : Option F256 :=
  let a := absBits x
  if BigUInt.gt a ONE.bits then some NAN
  else if BigUInt.beq a ONE.bits then some (if x.sign = 0 then Consts.FRAC_PI_2 else Consts.FRAC_PI_2.negated)
  else if BigUInt.le a ASIN_SMALL_CUT_OFF then some x
  else do
    let q ← asinArg x
    let r ← atanBig q
    return FP492.toF256 r

/-- src/math/circular_fns/asin_acos.rs:109-128 -/
def acos (x : F256) : Option F256 :=
  let a := absBits x
  if BigUInt.gt a ONE.bits then some NAN
  else if BigUInt.beq a ONE.bits then some (if x.sign = 0 then ZERO else Consts.PI)
  else do
    let q ← asinArg x
    let r ← atanBig q
    return FP492.toF256 (FP492.sub FP_FRAC_PI_2' r)

end F256

end Verif
