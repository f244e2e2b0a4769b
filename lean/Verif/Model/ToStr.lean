import Verif.Model.Wide
import Verif.Model.Log

/-!
# Model of `src/conv/to_str/{dec_repr, formatted, powers_of_five}.rs` and the shortest-digits part of
`src/conv/to_str/mod.rs`

Texts are lists of bytes. `none` is a panic. `i32` values are integers (none of the sums can leave the
range of `i32`), `as u32` wraps.

The two tables of the algorithm live in the crates `f256_pow2_div_pow5_lut` and `f256_pow5_div_pow2_lut`,
whose sources are not part of the repository. They are modelled by what the comments in `dec_repr.rs` say
about their entries, see `lookupPow2DivPow5` and `lookupPow5DivPow2`.
-/

namespace Verif

open BigUInt

/-! ## powers_of_five.rs -/

/-- src/conv/to_str/powers_of_five.rs:49-151 -/
def POWERS_OF_FIVE_U256 : List (Nat × Nat) := [
  (0x00000000000000000000000000000000, 0x00000000000000000000000000000001),
  (0x00000000000000000000000000000000, 0x00000000000000000000000000000005),
  (0x00000000000000000000000000000000, 0x00000000000000000000000000000019),
  (0x00000000000000000000000000000000, 0x0000000000000000000000000000007d),
  (0x00000000000000000000000000000000, 0x00000000000000000000000000000271),
  (0x00000000000000000000000000000000, 0x00000000000000000000000000000c35),
  (0x00000000000000000000000000000000, 0x00000000000000000000000000003d09),
  (0x00000000000000000000000000000000, 0x0000000000000000000000000001312d),
  (0x00000000000000000000000000000000, 0x0000000000000000000000000005f5e1),
  (0x00000000000000000000000000000000, 0x000000000000000000000000001dcd65),
  (0x00000000000000000000000000000000, 0x000000000000000000000000009502f9),
  (0x00000000000000000000000000000000, 0x00000000000000000000000002e90edd),
  (0x00000000000000000000000000000000, 0x0000000000000000000000000e8d4a51),
  (0x00000000000000000000000000000000, 0x00000000000000000000000048c27395),
  (0x00000000000000000000000000000000, 0x0000000000000000000000016bcc41e9),
  (0x00000000000000000000000000000000, 0x0000000000000000000000071afd498d),
  (0x00000000000000000000000000000000, 0x00000000000000000000002386f26fc1),
  (0x00000000000000000000000000000000, 0x0000000000000000000000b1a2bc2ec5),
  (0x00000000000000000000000000000000, 0x0000000000000000000003782dace9d9),
  (0x00000000000000000000000000000000, 0x000000000000000000001158e460913d),
  (0x00000000000000000000000000000000, 0x0000000000000000000056bc75e2d631),
  (0x00000000000000000000000000000000, 0x00000000000000000001b1ae4d6e2ef5),
  (0x00000000000000000000000000000000, 0x0000000000000000000878678326eac9),
  (0x00000000000000000000000000000000, 0x0000000000000000002a5a058fc295ed),
  (0x00000000000000000000000000000000, 0x000000000000000000d3c21bcecceda1),
  (0x00000000000000000000000000000000, 0x00000000000000000422ca8b0a00a425),
  (0x00000000000000000000000000000000, 0x000000000000000014adf4b7320334b9),
  (0x00000000000000000000000000000000, 0x00000000000000006765c793fa10079d),
  (0x00000000000000000000000000000000, 0x000000000000000204fce5e3e2502611),
  (0x00000000000000000000000000000000, 0x000000000000000a18f07d736b90be55),
  (0x00000000000000000000000000000000, 0x00000000000000327cb2734119d3b7a9),
  (0x00000000000000000000000000000000, 0x00000000000000fc6f7c40458122964d),
  (0x00000000000000000000000000000000, 0x00000000000004ee2d6d415b85acef81),
  (0x00000000000000000000000000000000, 0x00000000000018a6e32246c99c60ad85),
  (0x00000000000000000000000000000000, 0x0000000000007b426fab61f00de36399),
  (0x00000000000000000000000000000000, 0x000000000002684c2e58e9b04570f1fd),
  (0x00000000000000000000000000000000, 0x00000000000c097ce7bc90715b34b9f1),
  (0x00000000000000000000000000000000, 0x00000000003c2f7086aed236c807a1b5),
  (0x00000000000000000000000000000000, 0x00000000012ced32a16a1b11e8262889),
  (0x00000000000000000000000000000000, 0x0000000005e0a1fd2712875988becaad),
  (0x00000000000000000000000000000000, 0x000000001d6329f1c35ca4bfabb9f561),
  (0x00000000000000000000000000000000, 0x0000000092efd1b8d0cf37be5aa1cae5),
  (0x00000000000000000000000000000000, 0x00000002deaf189c140c16b7c528f679),
  (0x00000000000000000000000000000000, 0x0000000e596b7b0c643c7196d9ccd05d),
  (0x00000000000000000000000000000000, 0x00000047bf19673df52e37f2410011d1),
  (0x00000000000000000000000000000000, 0x00000166bb7f0435c9e717bb45005915),
  (0x00000000000000000000000000000000, 0x00000701a97b150cf18376a85901bd69),
  (0x00000000000000000000000000000000, 0x000023084f676940b7915149bd08b30d),
  (0x00000000000000000000000000000000, 0x0000af298d050e4395d69670b12b7f41),
  (0x00000000000000000000000000000000, 0x00036bcfc1194751ed30f03375d97c45),
  (0x00000000000000000000000000000000, 0x00111b0ec57e6499a1f4b1014d3f6d59),
  (0x00000000000000000000000000000000, 0x00558749db77f70029c77506823d22bd),
  (0x00000000000000000000000000000000, 0x01aba4714957d300d0e549208b31adb1),
  (0x00000000000000000000000000000000, 0x085a36366eb71f04147a6da2b7f86475),
  (0x00000000000000000000000000000000, 0x29c30f1029939b146664242d97d9f649),
  (0x00000000000000000000000000000000, 0xd0cf4b50cfe20765fff4b4e3f741cf6d),
  (0x00000000000000000000000000000004, 0x140c78940f6a24fdffc78873d4490d21),
  (0x00000000000000000000000000000014, 0x643e5ae44d12b8f5fee5aa43256d41a5),
  (0x00000000000000000000000000000065, 0xf537c675815d9ccdfa7c534fbb224839),
  (0x000000000000000000000000000001fd, 0xca16e04b86d41005e46da08ea7ab691d),
  (0x000000000000000000000000000009f4, 0xf2726179a224501d762422c946590d91),
  (0x000000000000000000000000000031c8, 0xbc3be7602ab590934eb4adee5fbd43d5),
  (0x0000000000000000000000000000f8eb, 0xad2b84e0d58bd2e0898765a7deb25329),
  (0x0000000000000000000000000004dc9a, 0x61d998642bbb1e62afa4fc47597b9fcd),
  (0x00000000000000000000000000184f03, 0xe93ff9f4daa797ed6e38ed64bf6a1f01),
  (0x00000000000000000000000000798b13, 0x8e3fe1c84545f7a3271ca2f7bd129b05),
  (0x000000000000000000000000025fb761, 0xc73f68e95a5dd62fc38f2ed6b15d0719),
  (0x0000000000000000000000000bde94e8, 0xe43d0c8ec3d52eeed1cbea3176d1237d),
  (0x0000000000000000000000003b58e88c, 0x75313ec9d329eaaa18fb92f75215b171),
  (0x00000000000000000000000128bc8abe, 0x49f639f11fd195527ce9ded49a6c7735),
  (0x000000000000000000000005cbaeb5b7, 0x71cf21b59f17ea9c70915a27041e5409),
  (0x00000000000000000000001cfa698c95, 0x390ba88c1b77950e32d6c2c31497a42d),
  (0x000000000000000000000090e40fbeea, 0x1d3a4abc8955e946fe31cdcf66f634e1),
  (0x0000000000000000000002d4744eba92, 0x922375aeaead8e62f6f9050d02cf0865),
  (0x000000000000000000000e264589a4dc, 0xdab14c696963c7eed2dd19410e0b29f9),
  (0x0000000000000000000046bf5bb03850, 0x45767e0f0ef2e7aa1e517e454637d1dd),
  (0x0000000000000000000161bcca711991, 0x5b50764b4abe86529797775a5f171951),
  (0x00000000000000000006e8aff4357fd6, 0xc8924f7875b89f9cf5f554c3db737e95),
  (0x000000000000000000228b6fc50b7f31, 0xeadb8d5a4c9b1e10cdcaa7d3494178e9),
  (0x000000000000000000acb92ed9397bf9, 0x9649c2c37f07965404f547206e475c8d),
  (0x0000000000000000035f9dea3e1f6bdf, 0xef70cdd17b25efa418ca63a22764cec1),
  (0x000000000000000010de1593369d1b5f, 0xad34051767bdae347bf3f22ac4f809c5),
  (0x000000000000000054566be0111188de, 0x6204197506b467066bc3bad5d8d830d9),
  (0x0000000000000001a5b01b605557ac57, 0xea147f49218603201ad2a62d3c38f43d),
  (0x00000000000000083c7088e1aab65db7, 0x92667c6da79e0fa0861d3ee22d1cc531),
  (0x00000000000000292e32ac68558fd495, 0xdc006e2446164e229e923a6ae18fd9f5),
  (0x00000000000000cde6fd5e09abcf26ed, 0x4c0226b55e6f86ad18db241667cf41c9),
  (0x000000000000040582f2d6305b0bc2a2, 0x7c0ac18ad82da1617c47b470070c48ed),
  (0x000000000000141b8ebe2ef1c73acd2c, 0x6c35c7b638e426e76d668630233d6ca1),
  (0x0000000000006489c9b6eab8e42601de, 0x1d0ce68f1c74c28523009ef0b0331f25),
  (0x000000000001f6b0f092959c74be0956, 0x914080cb8e47cc99af031ab370ff9bb9),
  (0x000000000009d174b2dcec0e47b62eb0, 0xd64283f9c766ff006b0f858134fe0a9d),
  (0x00000000003117477e509c47668ee974, 0x2f4c93e0e502fb02174d9b8608f63511),
  (0x0000000000f5746577930d6500ca8f44, 0xec7ee364790ee70a7484099e2ccf0955),
  (0x0000000004cb45fb55df42f903f4cc58, 0x9e7a70f65d4a833446943016e00b2ea9),
  (0x0000000017f85de8ad5c4edd13c7fdbb, 0x186434cfd274900560e4f0726037e94d),
  (0x0000000077d9d58b62cd8a5162e7f4a7, 0x79f5080f1c46d01ae478b23be1178e81),
  (0x0000000257412bb8ee03b396ee87c745, 0x61c9284b8d621086765b7b2b6575c885),
  (0x0000000bb445da9ca61281f2a8a6e45a, 0xe8edc979c2ea52a04fc967d8fb4cea99),
  (0x0000003a855d450f3e5c89bd4b4275c6, 0x8ca4ef60ce939d218eef073ce88094fd),
  (0x000001249ad2594c37ceb0b2784c4ce0, 0xbf38ace408e211a7caab24308a82e8f1),
  (0x000005b7061bbe7d1709737c597d8063, 0xbc1b60742c6a5846f557b4f2b48e8cb5),
  (0x00001c931e8ab871732f416dbf7381f2, 0xac88e244de13b962cab688bd86c8bf89)]

/-- src/conv/to_str/powers_of_five.rs:14-18 (`none`: index out of bounds) -/
def getPowerOfFiveU256 (n : Nat) : Option U256 :=
  (POWERS_OF_FIVE_U256[n]?).map fun (hi, lo) => U256.new (BitVec.ofNat 128 hi) (BitVec.ofNat 128 lo)

/-- src/conv/to_str/powers_of_five.rs:21-34 -/
def isMultipleOfPow5 (x : U256) (e : Nat) : Option Bool :=
  if e = 0 then some true
  else if e = 1 then do
    let (_, r) ← UInt.divRemU128 x 5
    return r == 0
  else do
    let p ← getPowerOfFiveU256 e
    if e ≤ 55 then
      let (_, r) ← UInt.divRemSub x p.lo
      return BigUInt.isZero r
    else
      let (_, r) ← UInt.divRem x p
      return U256.isZero r

/-! ## dec_repr.rs -/

/-- A natural number below 2^512 as `U512` -/
def u512OfNat (n : Nat) : U512 :=
  ⟨U256.new (BitVec.ofNat 128 (n / 2 ^ 384)) (BitVec.ofNat 128 (n / 2 ^ 256)),
    U256.new (BitVec.ofNat 128 (n / 2 ^ 128)) (BitVec.ofNat 128 n)⟩

/-- src/conv/to_str/dec_repr.rs:48-55. The table is not part of the repository; according to
src/conv/to_str/dec_repr.rs:162-164 (and analysis/gen_ryu_helper_tables.py:35-49) the entry is
`(⌊2^h / 5^g⌋ + 1) * 4` with `h = ⌊log2 5^g⌋ + 501`. -/
def lookupPow2DivPow5 (g : Nat) : U512 := u512OfNat ((2 ^ (Nat.log2 (5 ^ g) + 501) / 5 ^ g + 1) * 4)

/-- src/conv/to_str/dec_repr.rs:57-64. The table is not part of the repository; according to
src/conv/to_str/dec_repr.rs:198-201 (and analysis/gen_ryu_helper_tables.py:52-69) the entry is
`⌊5^i / 2^(h-2)⌋` with `h = ⌊log2 5^i⌋ + 1 - 501`. -/
def lookupPow5DivPow2 (i : Nat) : U512 :=
  u512OfNat (5 ^ i * 2 ^ (502 - Nat.log2 (5 ^ i)) / 2 ^ (Nat.log2 (5 ^ i) - 502))

/-- src/conv/to_str/dec_repr.rs:67-87 -/
def u256TruncatingMulU512 (x : U256) (y : U512) : U256 :=
  let (_, carry) := U128.wideningMul y.lo.lo x.lo
  let (l0, carry) := carryingMul y.lo.hi x.lo carry
  let (l1, carry) := carryingMul y.hi.lo x.lo carry
  let (l2, carry) := carryingMul y.hi.hi x.lo carry
  let l3 := carry
  let (h0, carry) := U128.wideningMul y.lo.lo x.hi
  let (h1, carry) := carryingMul y.lo.hi x.hi carry
  let (h2, carry) := carryingMul y.hi.lo x.hi carry
  let (h3, carry) := carryingMul y.hi.hi x.hi carry
  let hi := carry
  let (_, carry) := U128.overflowingAdd l0 h0
  let (_, carry) := carryingAdd l1 h1 carry
  let (_, carry) := carryingAdd l2 h2 carry
  let (lo, carry) := carryingAdd l3 h3 carry
  ⟨incrIf hi carry, lo⟩

/-- `DecNumRepr`, src/conv/to_str/dec_repr.rs:92-96 -/
structure DecRepr where
  sign : Nat
  exp10 : Int
  signif10 : U256
deriving DecidableEq, Repr

/-- The variables of src/conv/to_str/dec_repr.rs:150-155, 233-234, 267 and the three significands -/
structure Trim where
  signif : U256
  lower : U256
  upper : U256
  remZero : Bool
  lowerRemZero : Bool
  digit : BitVec 64 := 0
  roundUp : Bool := false
  i : Int := 0

/-- Loop of src/conv/to_str/dec_repr.rs:240-249. Each round divides by 10, 80 rounds are enough. The
quotients which the code computes at the end of a round are computed at the start of the next one. -/
def trimExact : Nat → Trim → Option Trim
  | 0, _ => none
  | fuel + 1, t => do
    let (lowerQuot, lowerRem) ← divRemU64 t.lower 10
    let (upperQuot, _) ← divRemU64 t.upper 10
    if UInt.cmp lowerQuot upperQuot == .lt then
      let (s, d) ← divRemU64 t.signif 10
      trimExact fuel { t with
        signif := s, digit := d, remZero := t.remZero && d == 0, lower := lowerQuot,
        lowerRemZero := t.lowerRemZero && lowerRem == 0, upper := upperQuot, i := t.i + 1 }
    else return t

/-- Loop of src/conv/to_str/dec_repr.rs:250-258 -/
def trimLower : Nat → Trim → Option Trim
  | 0, _ => none
  | fuel + 1, t => do
    let (lowerQuot, lowerRem) ← divRemU64 t.lower 10
    if lowerRem == 0 && !U256.isZero t.lower then
      let (s, d) ← divRemU64 t.signif 10
      trimLower fuel { t with
        signif := s, digit := d, remZero := t.remZero && d == 0, lower := lowerQuot, i := t.i + 1 }
    else return t

/-- Loop of src/conv/to_str/dec_repr.rs:281-292 -/
def trimCommon : Nat → Trim → Option Trim
  | 0, _ => none
  | fuel + 1, t => do
    let (lowerQuot, _) ← divRemU64 t.lower 10
    let (upperQuot, _) ← divRemU64 t.upper 10
    if UInt.cmp upperQuot lowerQuot == .gt then
      let (s, d) ← divRemU64 t.signif 10
      trimCommon fuel { t with
        signif := s, roundUp := decide (d ≥ 5), lower := lowerQuot, upper := upperQuot, i := t.i + 1 }
    else return t

/-- src/conv/to_str/dec_repr.rs:268-280: try to remove two digits -/
def trimTwo (t : Trim) : Option Trim := do
  let (lowerQuot, _) ← divRemU64 t.lower 100
  let (upperQuot, _) ← divRemU64 t.upper 100
  if UInt.cmp upperQuot lowerQuot == .gt then
    let (s, d) ← divRemU64 t.signif 100
    return { t with
      signif := s, roundUp := decide (d ≥ 50), lower := lowerQuot, upper := upperQuot, i := t.i + 2 }
  else return t

/-- src/conv/to_str/dec_repr.rs:231-296, "Step 4" -/
def trim (t : Trim) : Option (U256 × Int) :=
  if t.lowerRemZero || t.remZero then do
    let t ← trimExact 80 t
    let t ← if t.lowerRemZero then trimLower 80 t else some t
    if t.digit > 5 || (t.digit == 5 && (!t.remZero || BigUInt.isOdd t.signif.lo)) then
      return (UInt.incr t.signif, t.i)
    return (t.signif, t.i)
  else do
    let t ← trimTwo t
    let t ← trimCommon 80 t
    if t.roundUp || UInt.beq t.signif t.lower then return (UInt.incr t.signif, t.i)
    return (t.signif, t.i)

/-- src/conv/to_str/dec_repr.rs:156-189, "Step 3" for non-negative binary exponents; returns the decimal
exponent and the three significands with their flags -/
def toDec10Nonneg (acceptBounds : Bool) (exp2 : Int) (signif2 lower2 upper2 : U256) : Option (Int × Trim) := do
  let g := (floorLog10Pow2 (BitVec.ofInt 32 exp2)).toInt - (if exp2 > 3 then 1 else 0)
  let h := (floorLog2Pow5 (BitVec.ofInt 32 g)).toInt + 501
  let sh := (BitVec.ofInt 32 (exp2 - g - h + 510)).toNat
  let luv := lookupPow2DivPow5 g.toNat
  let lower := u256TruncatingMulU512 (UInt.shl lower2 sh) luv
  let signif := u256TruncatingMulU512 (UInt.shl signif2 sh) luv
  let upper := u256TruncatingMulU512 (UInt.shl upper2 sh) luv
  let t : Trim := { signif, lower, upper, remZero := false, lowerRemZero := false }
  if g ≤ 102 then
    let (_, r) ← UInt.divRemSub signif2 (5 : U128)
    if BigUInt.isZero r then
      let m ← isMultipleOfPow5 signif2 g.toNat
      return (g, { t with remZero := m })
    else if acceptBounds then
      let m ← isMultipleOfPow5 lower2 g.toNat
      return (g, { t with lowerRemZero := m })
    else
      let m ← isMultipleOfPow5 upper2 g.toNat
      if m then return (g, { t with upper := UInt.decr upper })
      return (g, t)
  else return (g, t)

/-- src/conv/to_str/dec_repr.rs:190-229, "Step 3" for negative binary exponents -/
def toDec10Neg (acceptBounds isNonInteger : Bool) (exp2 : Int) (signif2 lower2 upper2 : U256) : Int × Trim :=
  let g := (floorLog10Pow5 (BitVec.ofInt 32 (-exp2))).toInt - (if exp2 = -1 then 0 else 1)
  let exp10 := exp2 + g
  let i := -exp2 - g
  let h := (ceilLog2Pow5 (BitVec.ofInt 32 i)).toInt - 501
  let sh := (BitVec.ofInt 32 (510 - g + h)).toNat
  let luv := lookupPow5DivPow2 i.toNat
  let lower := u256TruncatingMulU512 (UInt.shl lower2 sh) luv
  let signif := u256TruncatingMulU512 (UInt.shl signif2 sh) luv
  let upper := u256TruncatingMulU512 (UInt.shl upper2 sh) luv
  let t : Trim := { signif, lower, upper, remZero := false, lowerRemZero := false }
  if g ≤ 1 then
    if acceptBounds then (exp10, { t with remZero := true, lowerRemZero := isNonInteger })
    else (exp10, { t with remZero := true, signif := UInt.decr signif })
  else if g ≤ 238 then (exp10, { t with remZero := decide (UInt.trailingZeros signif2 ≥ g.toNat) })
  else (exp10, t)

/-- src/conv/to_str/dec_repr.rs:124-300 -/
def shortestFromBinRepr (signif2 : U256) (exp2 : Int) : Option (U256 × Int) := do
  let acceptBounds := UInt.isEven signif2
  let exp2 := exp2 - 2
  let signif2 := UInt.shl signif2 2
  let isNonInteger := decide (exp2 < -(UInt.trailingZeros signif2 : Int))
  let lower2 ← UInt.sub signif2 (U256.new 0 (1 + boolU128 isNonInteger))
  let upper2 ← UInt.add signif2 UInt.two
  let (exp10, t) ←
    if exp2 ≥ 0 then toDec10Nonneg acceptBounds exp2 signif2 lower2 upper2
    else some (toDec10Neg acceptBounds isNonInteger exp2 signif2 lower2 upper2)
  let (signif10, i) ← trim t
  return (signif10, exp10 + i)

/-- src/conv/to_str/dec_repr.rs:101-117 -/
def DecRepr.shortestFromF256 (f : F256) : Option DecRepr := do
  let (signif10, exp10) ← shortestFromBinRepr f.integralSignificand f.quantumExponent
  return { sign := f.sign, exp10, signif10 }

/-! ## Text -/

/-- Digits of a number by repeated division, on fuel -/
def natTextFuel : Nat → Nat → List (BitVec 8)
  | 0, _ => []
  | fuel + 1, n =>
    if n < 10 then [BitVec.ofNat 8 (48 + n)]
    else natTextFuel fuel (n / 10) ++ [BitVec.ofNat 8 (48 + n % 10)]

/-- `Display` of the unsigned integers of the standard library -/
def natText (n : Nat) : List (BitVec 8) := natTextFuel (n + 1) n

/-- `Display` of the signed integers of the standard library -/
def intText (z : Int) : List (BitVec 8) := if z < 0 then 45#8 :: natText z.natAbs else natText z.natAbs

/-- `{:0width$}` of an unsigned integer -/
def natTextPad (width n : Nat) : List (BitVec 8) :=
  List.replicate (width - (natText n).length) 48#8 ++ natText n

/-- Loop of src/big_uint/uint_generic/mod.rs:379-382: the segments, least significant first -/
def segments : Nat → U256 → Option (List U128)
  | 0, _ => none
  | fuel + 1, t =>
    if U256.isZero t then some []
    else do
      let (t, r) ← UInt.divRemU128 t (BitVec.ofNat 128 (10 ^ 38))
      let rs ← segments fuel t
      return r :: rs

/-- `Display` of `U256`, src/big_uint/uint_generic/mod.rs:366-391 (without options). Three segments of 38
digits are enough. -/
def u256Text (x : U256) : Option (List (BitVec 8)) :=
  if BigUInt.isZero x.hi then some (natText x.lo.toNat)
  else do
    let rs ← segments 4 x
    match rs.reverse with
    | [] => none
    | r :: rs => return natText r.toNat ++ (rs.map fun (r : U128) => natTextPad 38 r.toNat).flatten

/-! ## formatted.rs -/

/-- src/conv/to_str/formatted.rs:14-23. The filler is the list of the bytes of the character. -/
inductive Part where
  | char (c : BitVec 8)
  | digits (s : List (BitVec 8))
  | zeroes (n : Nat)
  | padding (n : Nat) (c : List (BitVec 8))

/-- src/conv/to_str/formatted.rs:27-33 -/
def Part.len : Part → Nat
  | .char _ => 1
  | .digits s => s.length
  | .zeroes n | .padding n _ => n

/-- src/conv/to_str/formatted.rs:36-56 -/
def Part.write : Part → List (BitVec 8)
  | .char c => [c]
  | .digits s => s
  | .zeroes n => List.replicate n 48#8
  | .padding n c => (List.replicate n c).flatten

/-- `core::fmt::Alignment` -/
inductive Alignment where
  | left | right | center

/-- The options of `core::fmt::Formatter` used by the code -/
structure FormatOptions where
  width : Option Nat := none
  fill : List (BitVec 8) := [32#8]
  align : Option Alignment := none
  signPlus : Bool := false
  zeroPad : Bool := false

/-- src/conv/to_str/formatted.rs:67-69 -/
def partsLen (parts : List Part) : Nat := (parts.map Part.len).sum

/-- src/conv/to_str/formatted.rs:72-77 -/
def writeParts (parts : List Part) : List (BitVec 8) := (parts.map Part.write).flatten

/-- src/conv/to_str/formatted.rs:82-142 -/
def padParts (parts : List Part) (negative : Bool) (form : FormatOptions) : List (BitVec 8) :=
  let width := form.width.getD 1
  let sign : List (BitVec 8) := if negative then [45#8] else if form.signPlus then [43#8] else []
  let len := partsLen parts + sign.length
  if len < width then
    if form.zeroPad then sign ++ (Part.padding (width - len) [48#8]).write ++ writeParts parts
    else
      let n := width - len
      match form.align with
      | some .center =>
        (Part.padding (n / 2) form.fill).write ++ sign ++ writeParts parts ++
          (Part.padding (n - n / 2) form.fill).write
      | some .left => sign ++ writeParts parts ++ (Part.padding n form.fill).write
      | _ => (Part.padding n form.fill).write ++ sign ++ writeParts parts
  else sign ++ writeParts parts

namespace DecRepr

/-- src/conv/to_str/dec_repr.rs:316-332 -/
def scientificParts (d : DecRepr) (expMark : BitVec 8) : Option (List Part) := do
  let digits ← u256Text d.signif10
  let nDigits := digits.length
  let exp10 := d.exp10 + nDigits - 1
  return [Part.digits (digits.take 1)] ++
    (if nDigits > 1 then [Part.char 46#8, Part.digits (digits.drop 1)] else []) ++
    [Part.char expMark, Part.digits (intText exp10)]

/-- src/conv/to_str/dec_repr.rs:305-341 -/
def fmtScientific (d : DecRepr) (expMark : BitVec 8) (form : FormatOptions) : Option (List (BitVec 8)) := do
  let parts ← d.scientificParts expMark
  return padParts parts (d.sign == 1) form

/-- src/conv/to_str/dec_repr.rs:354-395 -/
def displayParts (d : DecRepr) : Option (List Part) := do
  let digits ← u256Text d.signif10
  let nDigits := digits.length
  let nIntDigits := (max 0 ((nDigits : Int) + d.exp10)).toNat
  let nFracDigits := (max 0 (-d.exp10)).toNat
  let int : List Part :=
    if nIntDigits > nDigits then [Part.digits digits, Part.zeroes (nIntDigits - nDigits)]
    else if nIntDigits > 0 then [Part.digits (digits.take nIntDigits)]
    else [Part.char 48#8]
  let frac : List Part :=
    if nFracDigits > 0 then
      if nFracDigits > nDigits then [Part.char 46#8, Part.zeroes (nFracDigits - nDigits), Part.digits digits]
      else [Part.char 46#8, Part.digits (digits.drop nIntDigits)]
    else []
  return int ++ frac

/-- `Display for DecNumRepr`, src/conv/to_str/dec_repr.rs:344-405 -/
def fmt (d : DecRepr) (form : FormatOptions) : Option (List (BitVec 8)) := do
  let parts ← d.displayParts
  return padParts parts (d.sign == 1) form

end DecRepr

/-! ## mod.rs -/

namespace F256

/-- `format_shortest`, src/conv/to_str/mod.rs:75-79: `Display` without precision of a finite number which
is not zero -/
def formatShortest (f : F256) (form : FormatOptions) : Option (List (BitVec 8)) := do
  let d ← DecRepr.shortestFromF256 f
  d.fmt form

/-- `format_scientific_shortest`, src/conv/to_str/mod.rs:163-172: `LowerExp` and `UpperExp` without
precision of a finite number which is not zero -/
def formatScientificShortest (f : F256) (expMark : BitVec 8) (form : FormatOptions) : Option (List (BitVec 8)) := do
  let d ← DecRepr.shortestFromF256 f
  d.fmtScientific expMark form

/-- The text written by `{}` (src/conv/to_str/mod.rs:33-57, 81-97). `pad_integral` of the standard
library writes `-` in front if told that the number is negative, and nothing else without options. -/
def display (f : F256) : Option (List (BitVec 8)) :=
  if f.isSpecial then
    if f.eqZero then some ((if f.isSignPositive then [] else [45#8]) ++ [48#8])
    else if f.isNan then some [78#8, 97#8, 78#8]
    else some ((if f.isSignPositive then [] else [45#8]) ++ [105#8, 110#8, 102#8])
  else f.formatShortest {}

/-- The text written by `{:e}` (`expMark` = `e`) or `{:E}` (`expMark` = `E`), src/conv/to_str/mod.rs:111-145 -/
def scientific (f : F256) (expMark : BitVec 8) : Option (List (BitVec 8)) :=
  if f.isSpecial then
    if f.eqZero then some ((if f.isSignPositive then [] else [45#8]) ++ [48#8, expMark, 48#8])
    else if f.isNan then some [78#8, 97#8, 78#8]
    else some ((if f.isSignPositive then [] else [45#8]) ++ [105#8, 110#8, 102#8])
  else f.formatScientificShortest expMark {}

end F256

end Verif
