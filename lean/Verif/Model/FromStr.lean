import Verif.Model.Parse
import Verif.Model.Decimal
import Verif.Model.PowersOfFive
import Verif.Model.PowersOfFive2
import Verif.Model.Mul
import Verif.Model.Conv

/-!
# Model of `src/conv/from_str/{mod, fast_exact, fast_approx, slow_exact}.rs`

From the literal to the number. `none` is a panic.
-/

namespace Verif

/-! ## slow_exact.rs -/

/-- Loop of src/conv/from_str/slow_exact.rs:37-50: the digits, position of the radix point, rest -/
def decDigits : List (BitVec 8) → Option Nat → List Nat × Option Nat × List (BitVec 8)
  | [], pos => ([], pos, [])
  | c :: t, pos =>
    if Lit.isDig c then
      let (ds, pos, rest) := decDigits t pos
      ((c - 48#8).toNat :: ds, pos, rest)
    else if c = 46#8 then decDigits t (some (t.length + 1))
    else ([], pos, c :: t)

/-- src/conv/from_str/slow_exact.rs:26-87. `add_digit` (src/conv/big_decimal.rs:305-312) applied to the
digits one after the other keeps the first `MAX_DIGITS`. -/
def parseDecimal (s : List (BitVec 8)) : Option Decimal :=
  let (sign, lit) := Lit.getSign { bytes := s }
  let lit := lit.skipLeadingZeroes
  let start := lit.len
  let (ds, pos, rest) := decDigits lit.bytes lit.state.posRadixPoint
  let (nDigits, nFrac) : Int × Int :=
    match pos with
    | some pos => ((start : Int) - (if pos < start then 1 else 0) - rest.length, (pos : Int) - 1 - rest.length)
    | none => ((start : Int) - rest.length, 0)
  match Lit.parseExponent { lit with bytes := rest } with
  | none => none
  | some (exponent, _) =>
    let buf := ds.take MAX_DIGITS
    some {
      sign := sign
      nDigits := Decimal.trim buf (min ds.length MAX_DIGITS)
      dp := wrapI32 (wrapI32 (wrapI32 nDigits - wrapI32 nFrac) + exponent)
      truncated := (ds.drop MAX_DIGITS).any (· != 0)
      buf := buf }

/-- src/conv/from_str/slow_exact.rs:97-118, indexed by `min k 19` -/
def decToBinShift (k : Nat) : Nat :=
  [0, 3, 6, 9, 13, 16, 19, 23, 26, 29, 33, 36, 39, 43, 46, 49, 53, 56, 59, 60].getD (min k 19) 0

/-- Loop of src/conv/from_str/slow_exact.rs:126-131; `2 * decimal_point + 2` rounds are enough. -/
def scaleDown : Nat → Decimal → Int → Decimal × Int
  | 0, d, e => (d, e)
  | fuel + 1, d, e =>
    if d.dp > 0 then
      let n := decToBinShift d.dp.toNat
      scaleDown fuel (d.rightShift n) (e + n)
    else (d, e)

/-- Loop of src/conv/from_str/slow_exact.rs:132-145; `6 * |decimal_point| + 6` rounds are enough. -/
def scaleUp : Nat → Decimal → Int → Decimal × Int
  | 0, d, e => (d, e)
  | fuel + 1, d, e =>
    if d.dp ≤ 0 then
      if d.dp = 0 then
        let c := d.buf.getD 0 0
        if c ≤ 1 then scaleUp fuel (d.leftShift 2) (e - 2)
        else if c ≤ 4 then scaleUp fuel (d.leftShift 1) (e - 1)
        else (d, e)
      else
        let n := decToBinShift (-d.dp).toNat
        scaleUp fuel (d.leftShift n) (e - n)
    else (d, e)

/-- Loop of src/conv/from_str/slow_exact.rs:150-154 -/
def scaleSub : Nat → Decimal → Int → Decimal × Int
  | 0, d, e => (d, e)
  | fuel + 1, d, e =>
    if e < EMIN then
      let n := min (EMIN - e).toNat 60
      scaleSub fuel (d.rightShift n) (e + n)
    else (d, e)

/-- Loop of src/conv/from_str/slow_exact.rs:164-169: 237 bits in steps of at most 60 -/
def shiftSignif (d : Decimal) : Decimal := (((d.leftShift 60).leftShift 60).leftShift 60).leftShift 57

/-- `[f256::INFINITY, f256::NEG_INFINITY][sign as usize]` -/
def signedInf (sign : Nat) : F256 := if sign = 0 then F256.INFINITY else F256.NEG_INFINITY

/-- `[f256::ZERO, f256::NEG_ZERO][sign as usize]` -/
def signedZero (sign : Nat) : F256 := if sign = 0 then F256.ZERO else F256.NEG_ZERO

/-- src/conv/from_str/slow_exact.rs:180-190 -/
def exactFinish (sign : Nat) (binExp : Int) (significand : U256) : F256 :=
  let binExp := if significand.hi < HI_FRACTION_BIAS then binExp - 1 else binExp
  if U256.isZero significand then signedZero sign
  else F256.new sign binExp significand

/-- src/conv/from_str/slow_exact.rs:121-190, behind the parsing -/
def exactOfDecimal (d : Decimal) : F256 :=
  let (d, e) := scaleDown (2 * d.dp.toNat + 2) d 0
  let (d, e) := scaleUp (6 * (-d.dp).toNat + 6) d e
  let e := e - 1
  let (d, e) := scaleSub (EMIN - e).toNat d e
  if e > EMAX then signedInf d.sign
  else
    let d := shiftSignif d
    let significand := d.round
    if significand.hi ≥ HI_FRACTION_BIAS <<< 1 then
      let d := d.rightShift 1
      let e := e + 1
      if e > EMAX then signedInf d.sign else exactFinish d.sign e d.round
    else exactFinish d.sign e significand

/-- src/conv/from_str/slow_exact.rs:93-191 -/
def f256Exact (s : List (BitVec 8)) : Option F256 := (parseDecimal s).map exactOfDecimal

/-! ## fast_approx.rs -/

/-- src/conv/from_str/powers_of_five.rs:15-18 (`none`: index out of bounds) -/
def getPowerOfFive (n : Int) : Option (U256 × Int) :=
  (powersOfFive2[(n + 1024).toNat]?).map fun (hi, lo, e) =>
    (U256.new (BitVec.ofNat 128 hi) (BitVec.ofNat 128 lo), e)

/-- src/conv/from_str/fast_approx.rs:45-98: the approximation, `some none` if it is not good enough -/
def approxCore (sign : Nat) (exp10 : Int) (signif10 : U256) : Option (Option F256) := do
  let nlz := BigUInt.leadingZeros signif10
  let signif10 := UInt.shl signif10 nlz
  let (p5, exp2) ← getPowerOfFive exp10
  let signif2 := BigUInt.truncatingMul signif10 p5
  let nlz2 := BigUInt.leadingZeros signif2
  let shift := EXP_BITS - nlz2
  let mask : BitVec 128 := (1 <<< shift) - 1
  let tie : BitVec 128 := 1 <<< (shift - 1)
  let fract := signif2.lo &&& mask
  let signif2 := UInt.shr signif2 shift
  let roundUp : Option Bool :=
    if fract > tie then some true
    else if fract < tie then
      if fract = tie - 1 then none else some false
    else if 0 ≤ exp10 ∧ exp10 ≤ 110 then some (UInt.isOdd signif2)
    else some true
  match roundUp with
  | none => return none
  | some up =>
    let signif2 := if up then UInt.incr signif2 else signif2
    let over := up && decide (signif2.hi ≥ HI_FRACTION_BIAS <<< 1)
    let signif2 := if over then UInt.shr signif2 1 else signif2
    let exp2 := if over then exp2 + 1 else exp2
    let exp2 := exp2 + (256 - nlz - nlz2 + exp10)
    if exp2 > EMAX then return some (signedInf sign)
    else return some (F256.new sign exp2 signif2)

/-- src/conv/from_str/fast_approx.rs:26-122 called with `signif_truncated = false` -/
def fastApproxFalse (lit : List (BitVec 8)) (sign : Nat) (exp10 : Int) (signif10 : U256) : Option F256 :=
  if exp10.natAbs ≤ 1024 then
    match approxCore sign exp10 signif10 with
    | none => none
    | some (some f) => some f
    | some none => f256Exact lit
  else f256Exact lit

/-- src/conv/from_str/fast_approx.rs:26-122. In the recursive call the significand is the shifted one, as
in the code. `exp2 > EMAX` returns before the test of `signif_truncated`; the model does not need to
distinguish this (see `approxCore`): for `|exp10| ≤ 1024` it does not happen. -/
def fastApprox (lit : List (BitVec 8)) (sign : Nat) (exp10 : Int) (signif10 : U256)
    (signifTruncated : Bool) : Option F256 :=
  if signifTruncated then
    if exp10.natAbs ≤ 1024 then
      match approxCore sign exp10 signif10 with
      | none => none
      | some none => f256Exact lit
      | some (some f) =>
        let shifted := UInt.shl signif10 (BigUInt.leadingZeros signif10)
        match fastApproxFalse lit sign exp10 (UInt.incr shifted) with
        | none => none
        | some f2 => if F256.eq f f2 then some f else f256Exact lit
    else f256Exact lit
  else fastApproxFalse lit sign exp10 signif10

/-! ## fast_exact.rs -/

/-- src/conv/from_str/fast_exact.rs:44-57 -/
def exactCore (sign : Nat) (exp10 : Int) (signif10 : U256) : Option F256 := do
  let x := F256.fromU256 signif10
  let y := powerOfFive exp10.natAbs
  let k : BitVec 128 := BitVec.ofNat 128 exp10.natAbs <<< HI_FRACTION_BITS
  let s : BitVec 128 := BitVec.ofNat 128 sign <<< HI_SIGN_SHIFT
  if exp10 < 0 then
    let f ← F256.div x y
    return ⟨⟨(f.bits.hi - k) ||| s, f.bits.lo⟩⟩
  else
    let f := F256.mul x y
    return ⟨⟨(f.bits.hi + k) ||| s, f.bits.lo⟩⟩

/-- The condition of src/conv/from_str/fast_exact.rs:43 -/
def fastExactOk (exp10 : Int) (signif10 : U256) : Bool :=
  decide (signif10.hi ≤ HI_FRACTION_BIAS + HI_FRACTION_MASK) && decide (exp10.natAbs ≤ 102)

/-- src/conv/from_str/fast_exact.rs:20-76 called with `signif_truncated = false` -/
def fastExactFalse (lit : List (BitVec 8)) (sign : Nat) (exp10 : Int) (signif10 : U256) : Option F256 :=
  if fastExactOk exp10 signif10 then exactCore sign exp10 signif10
  else fastApprox lit sign exp10 signif10 false

/-- src/conv/from_str/fast_exact.rs:20-76 -/
def fastExact (lit : List (BitVec 8)) (sign : Nat) (exp10 : Int) (signif10 : U256)
    (signifTruncated : Bool) : Option F256 :=
  if fastExactOk exp10 signif10 then do
    let f ← exactCore sign exp10 signif10
    if signifTruncated then
      let f2 ← fastExactFalse lit sign exp10 (UInt.incr signif10)
      if F256.eq f f2 then return f else f256Exact lit
    else return f
  else fastApprox lit sign exp10 signif10 signifTruncated

/-! ## mod.rs -/

/-- src/conv/from_str/mod.rs:28 -/
def MIN_10_EXP_CUTOFF : Int := -79056

/-- src/lib.rs:143-177 -/
def MIN_GT_ZERO_10_EXP : Int := -78984

/-- src/lib.rs:143-177 -/
def MAX_10_EXP : Int := 78913

/-- `ParseFloatError` (core): only empty / invalid are distinguished -/
inductive ParseError where
  | empty
  | invalid
deriving DecidableEq, Repr

/-- The branch for numbers, src/conv/from_str/mod.rs:68-110 -/
def numberToF256 (lit : List (BitVec 8)) (r : DecNumRepr) : Option F256 :=
  if U256.isZero r.significand ∨ r.exponent < MIN_10_EXP_CUTOFF then some (signedZero r.sign)
  else if r.exponent < MIN_GT_ZERO_10_EXP then f256Exact lit
  else if r.exponent > MAX_10_EXP then some (signedInf r.sign)
  else fastExact lit r.sign r.exponent r.significand r.signifTruncated

/-- src/conv/from_str/mod.rs:58-113 -/
def F256.fromStr (lit : List (BitVec 8)) : Option (Except ParseError F256) :=
  match FloatRepr.fromStr lit with
  | none => none
  | some .empty => some (.error .empty)
  | some .invalid => some (.error .invalid)
  | some .nan => some (.ok F256.NAN)
  | some (.inf sign) => some (.ok (signedInf sign))
  | some (.number r) => (numberToF256 lit r).map .ok

/-- src/num_traits.rs:72-82 -/
def F256.fromStrRadix (lit : List (BitVec 8)) (radix : Nat) : Option (Except ParseError F256) :=
  if radix ≠ 10 then some (.error .invalid) else F256.fromStr lit

end Verif
