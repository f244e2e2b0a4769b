import Verif.Model.Add
import Verif.Model.Mul
import Verif.Model.Conv
import Verif.Model.BigFloat
import Verif.Model.TrigCoeffs
import Verif.Model.TwoOverPi

/-!
# Model of the circular functions (src/math/circular_fns/)

`none` stands for a panic. The inverse functions are in Model/Atan.lean.
-/

namespace Verif

open BigUInt

namespace FP492

/-- src/math/fp509.rs:38-39 -/
def TWO : FP492 := new (1 <<< 109) 0 0 0

/-- src/math/fp509.rs:40-41 -/
def ONE_HALF : FP492 := new (1 <<< 107) 0 0 0

/-- `SubAssign`, src/math/fp509.rs:326-331 -/
def sub (x y : FP492) : FP492 := add x (ineg y)

/-- `x <= y` -/
def le (x y : FP492) : Bool := cmp x y != .gt

/-- `From<&f256>`, src/math/fp509.rs:231-250; the integers are not bounded -/
def fromF256 (f : F256) : FP492 :=
  let (_, e, s) := F256.splitEnc f
  let e := e + 236
  let shl := (Max.max 0 (Min.min e 19)).toNat
  let shr := (Max.max (-492) (Min.min e 0)).natAbs
  let r : FP492 := UInt.shr (⟨UInt.shl s shl, UInt.zero⟩ : U512) shr
  if f.isSignNegative then ineg r else r

/-- `From<&BigFloat>`, src/math/fp509.rs:181-195 -/
def fromBigFloat (x : BigFloat) : FP492 :=
  let sh : Int := 18 - x.exp
  if sh < 0 ∨ 512 ≤ sh then ZERO
  else
    let r : FP492 := UInt.shr (⟨x.signif, UInt.zero⟩ : U512) sh.toNat
    if x.signum < 0 then ineg r else r

end FP492

namespace Trig

/-- src/math/circular_fns/approx_sin.rs:236-241 -/
def SIN_SMALL_CUT_OFF : FP492 := FP492.new 0x00000000000000000000000000000000 0x005c4dd12448fbd973779fc5b15b8c99
  0xf02871b5584367dcb9d6fe24cc9ce800 0x00000000000000000000000000000000

/-- src/math/circular_fns/approx_cos.rs:249-254 -/
def COS_SMALL_CUT_OFF : FP492 := FP492.new 0x00000000000000000000000000000000 0x002d413cccfe779921165f626cdd52af
  0xa7c75bd82ea24eea133b45eb2160cc00 0x00000000000000000000000000000000

/-- The loops of src/math/circular_fns/approx_sin.rs:252-256 and approx_cos.rs:265-269 -/
def horner (x2 : FP492) : FP492 → List FP492 → FP492
  | acc, [] => acc
  | acc, c :: rest => horner x2 (FP492.add (FP492.imulRound acc x2) c) rest

/-- The first coefficient starts the evaluation, the other ones are added -/
def hornerAll (coeffs : List FP492) (x2 : FP492) : FP492 :=
  match coeffs with
  | [] => FP492.ZERO
  | c :: rest => horner x2 c rest

/-- src/math/circular_fns/approx_sin.rs:243-259 -/
def approxSin (x : FP492) : FP492 :=
  let a := FP492.iabs x
  if FP492.le a SIN_SMALL_CUT_OFF then x
  else FP492.imulRound (hornerAll sinCoeffs (FP492.imulRound a a)) x

/-- src/math/circular_fns/approx_cos.rs:256-271 -/
def approxCos (x : FP492) : FP492 :=
  let a := FP492.iabs x
  if FP492.le a COS_SMALL_CUT_OFF then FP492.ONE
  else hornerAll cosCoeffs (FP492.imulRound a a)

/-- src/math/circular_fns/approx_sin_cos.rs:16-24 -/
def approxSinCos (x : FP492) : FP492 × FP492 :=
  let a := FP492.iabs x
  if FP492.le a COS_SMALL_CUT_OFF then (x, FP492.ONE)
  else (approxSin x, approxCos x)

/-- The number of bytes of the table, src/math/circular_fns/two_over_pi.rs:12-14 -/
def L : Nat := 32859

/-- 16 bytes of the table as a big endian number -/
def beWord (idx : Nat) : BitVec 128 := BitVec.ofNat 128 (TWO_OVER_PI >>> (8 * (L - 16 - idx)))

/-- src/math/circular_fns/two_over_pi.rs:16-33 -/
def get256Bits (offset : Nat) : Option U256 :=
  let idx := offset / 8
  let sh := offset % 8
  if L < idx + 32 then none
  else
    let res : U256 := U256.new (beWord idx) (beWord (idx + 16))
    if 0 < sh then
      if L ≤ idx + 32 then none
      else
        let res := UInt.shl res sh
        let b : BitVec 8 := BitVec.ofNat 8 (TWO_OVER_PI >>> (8 * (L - 1 - (idx + 32))))
        some ⟨res.hi, res.lo + (b >>> (8 - sh)).setWidth 128⟩
    else some res

/-- src/math/circular_fns/reduce.rs:18-23 -/
def FP_FRAC_PI_4 : FP492 := FP492.new 0x00000c90fdaa22168c234c4c6628b80d 0xc1cd129024e088a67cc74020bbea63b1
  0x39b22514a08798e3404ddef9519b3cd3 0xa431b302b0a6df25f14374fe1356d6d5

/-- src/math/circular_fns/reduce.rs:24-29 -/
def FP_FRAC_PI_2 : FP492 := FP492.new 0x00001921fb54442d18469898cc51701b 0x839a252049c1114cf98e804177d4c762
  0x73644a29410f31c6809bbdf2a33679a7 0x48636605614dbe4be286e9fc26adadaa

/-- src/math/circular_fns/reduce.rs:30-35 -/
def FP_FRAC_3_PI_4 : FP492 := FP492.new 0x000025b2f8fe6643a469e4e5327a2829 0x456737b06ea199f37655c06233bf2b13
  0xad166f3de196caa9c0e99cebf4d1b67a 0xec95190811f49d71d3ca5efa3a04847f

/-- src/math/circular_fns/reduce.rs:36-41 -/
def FP_PI : FP492 := FP492.new 0x00003243f6a8885a308d313198a2e037 0x07344a4093822299f31d0082efa98ec4
  0xe6c89452821e638d01377be5466cf34e 0x90c6cc0ac29b7c97c50dd3f84d5b5b54

/-- src/math/circular_fns/reduce.rs:42-47 -/
def FP_FRAC_5_PI_4 : FP492 := FP492.new 0x00003ed4f452aa70bcb07d7dfecb9844 0xc9015cd0b862ab406fe440a3ab93f276
  0x207ab96722a5fc7041855ade98083022 0x34f87f0d73425bbdb65148f660b2322a

/-- src/math/circular_fns/reduce.rs:48-53 -/
def FP_FRAC_7_PI_4_M4 : FP492 := FP492.new 0x000017f6efa6ee9dd4f71616cb1d0860 0x4c9b81f10223bc8d6972c0e52368b9d8
  0x93df039063b52e36c22118d13b3ea9c9 0x7d5be512d4901a0998d832f2875fdfd4

/-- src/math/circular_fns/reduce.rs:54-59 -/
def FP_FRAC_9_PI_4_M4 : FP492 := FP492.new 0x00003118eafb32caed3daeaf976e787b 0xd035a7114be4cdda630141269b3d813b
  0x07434db9a4c45ffd42bcd6c3de752370 0xc5bf4b1835ddd8557b5f1ceeae0d8d7e

/-- src/math/circular_fns/reduce.rs:133-140 -/
def R : BigFloat := BigFloat.new 1 (-1) 0x517cc1b727220a94fe13abe8fa9a6ee0 0x6db14acc9e21c820ff28b1d5ef5de2b1

/-- src/math/circular_fns/reduce.rs:145-152 -/
def C1 : BigFloat := BigFloat.new 1 0 0x6487ed5110b4611a62633145c06e0e68 0x948127044533e63a0105df531d89cd90

/-- src/math/circular_fns/reduce.rs:155-162 -/
def C2 : BigFloat := BigFloat.new 1 (-254) 0x4a29410f31c6809bbdf2a33679a74863 0x6605614dbe4be286e9fc26adadaa3848

/-- src/math/circular_fns/reduce.rs:165-172 -/
def C3 : BigFloat := BigFloat.new 1 (-509) 0x5e485b576625e7ec6f44c42e9a637ed6 0xb0bff5cb6f406b7edee386bfb5a899fa

/-- src/math/circular_fns/reduce.rs:175-182 -/
def D : BigFloat := BigFloat.new 1 254 0x60000000000000000000000000000000 0x00000000000000000000000000000000

/-- The last product is subtracted together with its rounding error, src/math/circular_fns/reduce.rs:194-197 (with
`c = C2` and `u = u1`) and 200-203 (with `c = C3` and `u = u2`) -/
def fmaTail (z c u : BigFloat) : Option (BigFloat × BigFloat) := do
  let v1 ← BigFloat.mulAdd (BigFloat.neg z) c u
  let (p1, p2) ← BigFloat.mulExact z c
  let (t1, t2) ← BigFloat.sumExact u (BigFloat.neg p1)
  let d ← BigFloat.sub t1 v1
  let s ← BigFloat.add d t2
  let v2 ← BigFloat.sub s p2
  return (v1, v2)

/-- src/math/circular_fns/reduce.rs:188-214, the case of an exponent that is not greater than 240 -/
def fmaReduce (f : F256) : Option (Nat × FP492) := do
  let x := BigFloat.fromF256 f
  let t ← BigFloat.mulAdd x R D
  let z ← BigFloat.sub t D
  let u1 ← BigFloat.mulAdd (BigFloat.neg z) C1 x
  let neededBits := 1 - u1.exp + 254 + x.exp
  let (v1, v2) ←
    if neededBits ≤ 506 then fmaTail z C2 u1
    else do
      let u2 ← BigFloat.mulAdd (BigFloat.neg z) C2 u1
      fmaTail z C3 u2
  let e := z.exp - 254
  let q := ((UInt.shr z.signif e.natAbs).lo &&& 3#128).toNat
  return (q, FP492.add (FP492.fromBigFloat v1) (FP492.fromBigFloat v2))

/-- src/math/circular_fns/reduce.rs:223-276 -/
def largeValReduce (e : Int) (x : F256) : Option (Nat × FP492) := do
  let m := x.integralSignificand
  let idx := e.toNat - 238
  let r1Hi := UInt.shr (← get256Bits idx) 18
  let r1Mi ← get256Bits (idx + 238)
  let r1Lo ← get256Bits (idx + 494)
  let (_, tl1) := UInt.wideningMul m r1Lo
  let (tl2, th1) := UInt.wideningMul m r1Mi
  let (tl, ovl) := UInt.overflowingAdd tl1 tl2
  let th1 := BigUInt.incrIf th1 ovl
  let (th2, _) := UInt.wideningMul m r1Hi
  let (th, _) := UInt.overflowingAdd th1 th2
  let k := (th.hi >>> 108).toNat
  let th : U256 := ⟨th.hi &&& ((1#128 <<< 108) - 1), th.lo⟩
  let y : FP492 := ⟨th, tl⟩
  let up := FP492.cmp y FP492.ONE_HALF == .gt || (UInt.beq y FP492.ONE_HALF && decide (k % 2 = 1))
  let k := if up then k + 1 else k
  let y := if up then FP492.sub y FP492.ONE else y
  return (k % 4, FP492.imulRound y FP_FRAC_PI_2)

/-- src/math/circular_fns/reduce.rs:62-123, with the selection made in lines 186-187 and 215 -/
def fpReduce (e : Int) (x : F256) : Option (Nat × FP492) := do
  if e = -1 then
    let fx := FP492.fromF256 x
    if FP492.le fx FP_FRAC_PI_4 then return (0, fx)
    else return (1, FP492.sub fx FP_FRAC_PI_2)
  else if e = 0 then return (1, FP492.sub (FP492.fromF256 x) FP_FRAC_PI_2)
  else if e = 1 then
    let fx := FP492.fromF256 x
    if FP492.le fx FP_FRAC_3_PI_4 then return (1, FP492.sub fx FP_FRAC_PI_2)
    else if FP492.le fx FP_FRAC_5_PI_4 then return (2, FP492.sub fx FP_PI)
    else return (3, FP492.sub (FP492.sub fx FP_PI) FP_FRAC_PI_2)
  else if e = 2 then
    let fx := FP492.fromF256 (← F256.sub x (F256.fromU64 4#64))
    if FP492.le fx FP_FRAC_7_PI_4_M4 then
      let fx := FP492.add fx FP492.TWO
      let fx := FP492.sub fx FP_PI
      let fx := FP492.add fx FP492.TWO
      return (3, FP492.sub fx FP_FRAC_PI_2)
    else
      let fx' := FP492.sub fx FP_PI
      let fx' := FP492.add fx' FP492.TWO
      let fx' := FP492.sub fx' FP_PI
      let fx' := FP492.add fx' FP492.TWO
      if FP492.le fx FP_FRAC_9_PI_4_M4 then return (0, fx')
      else return (1, FP492.sub fx' FP_FRAC_PI_2)
  else if e ≤ 240 then fmaReduce x
  else largeValReduce e x

/-- src/math/circular_fns/reduce.rs:280-288 -/
def reduce (x : F256) : Option (Nat × FP492) :=
  if x.exponent ≤ -2 then some (0, FP492.fromF256 x) else fpReduce x.exponent x

end Trig

namespace F256

open Trig

/-- `(self.bits.hi.0 & HI_ABS_MASK) > Self::MAX.bits.hi.0`, e.g. src/math/circular_fns/sin.rs:22 -/
def absGtMax (x : F256) : Bool := decide (MAX_HI < x.bits.hi &&& HI_ABS_MASK)

/-- src/math/circular_fns/sin.rs:19-42 -/
def sin (x : F256) : Option F256 :=
  if x.isSpecial then (if x.absGtMax then some NAN else some ZERO)
  else do
    let (q, fx) ← reduce x.abs
    match q, x.sign with
    | 0, 0 => return FP492.toF256 (approxSin fx)
    | 0, 1 => return negated (FP492.toF256 (approxSin fx))
    | 1, 0 => return FP492.toF256 (approxCos fx)
    | 1, 1 => return negated (FP492.toF256 (approxCos fx))
    | 2, 0 => return negated (FP492.toF256 (approxSin fx))
    | 2, 1 => return FP492.toF256 (approxSin fx)
    | 3, 0 => return negated (FP492.toF256 (approxCos fx))
    | 3, 1 => return FP492.toF256 (approxCos fx)
    | _, _ => none

/-- src/math/circular_fns/cos.rs:19-38 -/
def cos (x : F256) : Option F256 :=
  if x.isSpecial then (if x.absGtMax then some NAN else some ONE)
  else do
    let (q, fx) ← reduce x.abs
    match q with
    | 0 => return FP492.toF256 (approxCos fx)
    | 1 => return negated (FP492.toF256 (approxSin fx))
    | 2 => return negated (FP492.toF256 (approxCos fx))
    | 3 => return FP492.toF256 (approxSin fx)
    | _ => none

/-- src/math/circular_fns/sin_cos.rs:26-51 -/
def sinCos (x : F256) : Option (F256 × F256) :=
  if x.isSpecial then (if x.absGtMax then some (NAN, NAN) else some (ZERO, ONE))
  else do
    let (q, fx) ← reduce x.abs
    let (s, c) := approxSinCos fx
    match q, x.sign with
    | 0, 0 => return (FP492.toF256 s, FP492.toF256 c)
    | 0, 1 => return (negated (FP492.toF256 s), FP492.toF256 c)
    | 1, 0 => return (FP492.toF256 c, negated (FP492.toF256 s))
    | 1, 1 => return (negated (FP492.toF256 c), negated (FP492.toF256 s))
    | 2, 0 => return (negated (FP492.toF256 s), negated (FP492.toF256 c))
    | 2, 1 => return (FP492.toF256 s, negated (FP492.toF256 c))
    | 3, 0 => return (negated (FP492.toF256 c), FP492.toF256 s)
    | 3, 1 => return (FP492.toF256 c, FP492.toF256 s)
    | _, _ => none

/-- src/math/circular_fns/tan.rs:15-27 -/
def tan (x : F256) : Option F256 :=
  if x.isSpecial then (if x.absGtMax then some NAN else some ZERO)
  else do
    let (s, c) ← sinCos x
    div s c

end F256

end Verif
