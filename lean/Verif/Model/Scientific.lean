import Verif.Model.Format

/-!
# Model of the scientific part of `src/conv/to_str/to_fixed_prec.rs`: `{:.pe}` and `{:.pE}`

Texts are lists of bytes. `none` is a panic. The code estimates `⌊log10 (m * 2^i)⌋` with `f64` and the logarithm of the
platform (`floor_log10f`, src/conv/to_str/common.rs:22-28). This estimate is not modelled, it is the parameter `est` of the
definitions. The table crate `f256_pow2_div_pow10_lut` is not part of the repository, it is modelled by the script which
generates it, `analysis/gen_ryu_print_helper_tables.py`. `Display` of `U512` is the generic code proved for `U256`
(`u256Text`); here it is the text of the number.
-/

namespace Verif

open BigUInt

/-- The value of a 512-bit integer, as printed by its `Display`, src/big_uint/uint_generic/mod.rs:366-391 -/
def u512Nat (x : U512) : Nat :=
  ((x.hi.hi.toNat * 2 ^ 128 + x.hi.lo.toNat) * 2 ^ 128 + x.lo.hi.toNat) * 2 ^ 128 + x.lo.lo.toNat

/-- `split_into_buf`, src/conv/to_str/to_fixed_prec.rs:230-235 -/
def splitText : List (BitVec 8) → List (BitVec 8)
  | [] => [46#8]
  | c :: cs => c :: 46#8 :: cs

/-- The end of src/conv/to_str/to_fixed_prec.rs:276-288 and 321-333: `s` are the digits of the rounded significand -/
def signifText (s : List (BitVec 8)) (prec : Nat) (exp10 : Int) : List (BitVec 8) × Int :=
  let (s, exp10) := if s.length > prec + 1 then (s.dropLast, exp10 + 1) else (s, exp10)
  (if prec = 0 then s else splitText s, exp10)

/-- `bin_small_float_2_scientific`, src/conv/to_str/to_fixed_prec.rs:237-289. `exp10` is the estimate of the exponent. -/
def smallFloat2Scientific (signif2 : U256) (exp2 : Int) (prec : Nat) (exp10 : Int) : Option (List (BitVec 8) × Int) := do
  let k := (prec : Int) - exp10
  let n := -exp2
  let signif10 ←
    if k ≥ 0 then do
      let p ← getPowerOfFiveU256 k.toNat
      let (lo, hi) := UInt.wideningMul signif2 p
      let t : U512 := ⟨hi, lo⟩
      if k < n then some (UInt.roundingDivPow2 t (n - k).toNat) else some (UInt.shl t (k - n).toNat)
    else do
      let p ← getPowerOfFiveU256 (-k).toNat
      let d := UInt.shl p (n - k).toNat
      let t ← UInt.roundingDiv signif2 d
      some (⟨ZERO, t⟩ : U512)
  return signifText (natText (u512Nat signif10)) prec exp10

/-- `bin_small_int_2_scientific`, src/conv/to_str/to_fixed_prec.rs:291-334. `exp10` is the estimate of the exponent. -/
def smallInt2Scientific (signif2 : U256) (exp2 : Int) (prec : Nat) (exp10 : Int) : Option (List (BitVec 8) × Int) := do
  let k := exp10 - prec
  let signif10 ←
    if k > 0 then
      let t : U512 := ⟨ZERO, signif2⟩
      roundingDivPow10 (UInt.shl t exp2.toNat) k.toNat
    else do
      let p ← getPowerOfFiveU256 (-k).toNat
      let t := UInt.shl p (exp2 - k).toNat
      let (lo, hi) := UInt.wideningMul signif2 t
      some (⟨hi, lo⟩ : U512)
  return signifText (natText (u512Nat signif10)) prec exp10

/-! ## Chunks -/

/-- Lowest exponent of a segment, analysis/gen_ryu_print_helper_tables.py:51, 63-64 -/
def posSegmentLower (segment : Nat) : Nat := (segment + 8) * 32

/-- Index of the first chunk of a segment, analysis/gen_ryu_print_helper_tables.py:66. The script computes `log10 2` with
floating point numbers, here it is `169464822037455 / 2^49` as in src/conv/to_str/common.rs:18. -/
def posFirstChunk (segment : Nat) : Nat :=
  ((posSegmentLower segment + 31 + 236) * 169464822037455 / 2 ^ 49 + 2) / CHUNK_SIZE

/-- `get_pow2_div_pow10_params` of the crate, for exponents from 276 on: the index of the segment, the number of chunks, and
the shift -/
def pow2DivPow10Params (exp2 : Nat) : Nat × Nat × Nat :=
  let segment := exp2 / 32 - 8
  (segment, posFirstChunk segment + 1, posSegmentLower segment + TABLE_BITS)

/-- `lookup_pow2_div_pow10` of the crate, analysis/gen_ryu_print_helper_tables.py:68-71, and
src/conv/to_str/to_fixed_prec.rs:64-68 -/
def pow2DivPow10 (segment chunk : Nat) : U512 :=
  u512OfNat ((2 ^ (posSegmentLower segment + TABLE_BITS) / 10 ^ ((posFirstChunk segment - chunk) * CHUNK_SIZE) + 1) %
    (10 ^ CHUNK_SIZE * 2 ^ TABLE_BITS))

/-- `n` complete chunks from `chunk` on: the loops of src/conv/to_str/to_fixed_prec.rs:393-406 and 509-521 -/
def sciChunks (look : Nat → U512) (signif2 : U256) (shift : Nat) : Nat → Nat → Option (List (BitVec 8))
  | 0, _ => some []
  | n + 1, chunk => do
    let c ← mulShiftMod signif2 (look chunk) shift
    let rest ← sciChunks look signif2 shift n (chunk + 1)
    return natTextPad CHUNK_SIZE c ++ rest

/-- What the chunks give: the text, the number of skipped chunks, the number of digits of the first chunk behind its
leading digit, the remainder of the last chunk, and half of the divisor -/
structure SciDigits where
  text : List (BitVec 8)
  skipped : Nat
  nDigits : Nat
  rem : Nat
  tie : Nat

/-- The part of `sciDigits` behind the choice of the first chunk (src/conv/to_str/to_fixed_prec.rs:367-418, 474-525): `chunk` is
the first chunk that is not zero and `idx` its index. -/
def sciDigitsFrom (look : Nat → U512) (signif2 : U256) (shift prec idx chunk : Nat) : Option SciDigits := do
  let nDigits := (floorLog10 (BitVec.ofNat 64 chunk)).toNat
  if nDigits > prec then
    -- the first chunk is the last one
    let d := 10 ^ nDigits
    let i := natText (chunk / d)
    let chunk := chunk % d
    let d := 10 ^ (nDigits - prec)
    return { text := i ++ (if prec > 0 then 46#8 :: natTextPad prec (chunk / d) else []), skipped := idx, nDigits,
             rem := chunk % d, tie := d / 2 }
  else
    let s := natText chunk
    let s := if prec > 0 then splitText s else s
    let nRem := prec - nDigits
    let full ← sciChunks look signif2 shift (nRem / CHUNK_SIZE) (idx + 1)
    let chunk ← mulShiftMod signif2 (look (idx + 1 + nRem / CHUNK_SIZE)) shift
    let n := nRem % CHUNK_SIZE
    let d := 10 ^ (CHUNK_SIZE - n)
    return { text := s ++ full ++ (if n > 0 then natTextPad n (chunk / d) else []), skipped := idx, nDigits,
             rem := chunk % d, tie := d / 2 }

/-- The common part of src/conv/to_str/to_fixed_prec.rs:347-432 and 457-552: `look` is the table, with the segment -/
def sciDigits (look : Nat → U512) (signif2 : U256) (shift prec : Nat) : Option SciDigits :=
  (mulShiftMod signif2 (look 0) shift).bind fun chunk =>
  if chunk = 0 then (mulShiftMod signif2 (look 1) shift).bind fun chunk => sciDigitsFrom look signif2 shift prec 1 chunk
  else sciDigitsFrom look signif2 shift prec 0 chunk

/-- `bin_large_int_2_scientific`, src/conv/to_str/to_fixed_prec.rs:336-441. The assertion on the index of the chunk (lines
398-401) never fails: the precision is at most 75. -/
def largeInt2Scientific (signif2 : U256) (exp2 : Nat) (prec : Nat) : Option (List (BitVec 8) × Rounding × Int) := do
  let (segment, nChunks, segmentShift) := pow2DivPow10Params exp2
  let r ← sciDigits (pow2DivPow10 segment) signif2 (segmentShift - exp2) prec
  let exp10 := r.nDigits + (nChunks - r.skipped - 1) * CHUNK_SIZE
  let round ←
    if r.rem > r.tie then some Rounding.up
    else if r.rem = r.tie then
      let k := exp10 - prec - 1
      if k < 103 then do
        let b ← isMultipleOfPow5 signif2 k
        some (if b then Rounding.toEven else Rounding.up)
      else some Rounding.up
    else some Rounding.down
  return (r.text, round, exp10)

/-- `bin_fract_2_scientific`, src/conv/to_str/to_fixed_prec.rs:443-552 -/
def fract2Scientific (signif2 : U256) (exp2 : Int) (prec : Nat) : Option (List (BitVec 8) × Rounding × Int) := do
  let (segment, nZeroChunks, segmentShift) := pow10DivPow2Params exp2
  let r ← sciDigits (pow10DivPow2 segment) signif2 (segmentShift - exp2).toNat prec
  let exp10 : Int := -((nZeroChunks * CHUNK_SIZE : Nat) : Int) - (r.skipped * CHUNK_SIZE : Nat) - ((CHUNK_SIZE - r.nDigits : Nat) : Int)
  let round :=
    if r.rem > r.tie then Rounding.up
    else if r.rem = r.tie then
      if ((UInt.trailingZeros signif2 + prec + 1 : Nat) : Int) ≥ -exp2 then Rounding.toEven else Rounding.up
    else Rounding.down
  return (r.text, round, exp10)

/-- The loop of src/conv/to_str/to_fixed_prec.rs:564-579, on the reversed text: the text and the carry -/
def roundUpSciRev : List (BitVec 8) → Option (List (BitVec 8) × Int)
  | [] => none
  | [c] => if c = 57#8 then some ([49#8], 1) else if c = 46#8 then none else some ([c + 1], 0)
  | c :: cs =>
    if c = 57#8 then (roundUpSciRev cs).map fun (s, carry) => (48#8 :: s, carry)
    else if c = 46#8 then (roundUpSciRev cs).map fun (s, carry) => (46#8 :: s, carry)
    else some ((c + 1) :: cs, 0)

/-- `round_up_scientific_inplace`, src/conv/to_str/to_fixed_prec.rs:554-582 -/
def roundUpScientific (num : List (BitVec 8)) : Option (List (BitVec 8) × Int) :=
  (roundUpSciRev num.reverse).map fun (s, carry) => (s.reverse, carry)

namespace F256

/-- The match of src/conv/to_str/to_fixed_prec.rs:611-645. `est m i` is the estimate of `⌊log10 (m * 2^i)⌋`. -/
def scientificParts (est : U256 → Int → Int) (f : F256) (prec : Nat) : Option (List (BitVec 8) × Rounding × Int) := do
  let exp2 := f.quantumExponent
  let signif2 := f.integralSignificand
  if -236 ≤ exp2 ∧ exp2 ≤ -1 then
    let (s, exp10) ← smallFloat2Scientific signif2 exp2 prec (est signif2 exp2)
    return (s, .down, exp10)
  else if 0 ≤ exp2 ∧ exp2 ≤ 275 then
    let (s, exp10) ← smallInt2Scientific signif2 exp2 prec (est signif2 exp2)
    return (s, .down, exp10)
  else if EMIN ≤ exp2 ∧ exp2 ≤ -237 then fract2Scientific signif2 exp2 prec
  else if 276 ≤ exp2 ∧ exp2 ≤ EMAX - 236 then
    let (s, round, exp10) ← largeInt2Scientific signif2 exp2.toNat prec
    return (s ++ List.replicate (prec - Nat.min prec exp10.toNat) 48#8, round, exp10)
  else if EMIN - 236 ≤ exp2 ∧ exp2 ≤ EMIN - 1 then
    let adj := 237 - BigUInt.msb signif2
    fract2Scientific (UInt.shl signif2 adj) (exp2 - (adj : Int)) prec
  else none

/-- `bin_2_dec_scientific`, src/conv/to_str/to_fixed_prec.rs:584-658 -/
def bin2DecScientific (est : U256 → Int → Int) (f : F256) (expMark : BitVec 8) (prec : Nat) : Option (List (BitVec 8)) := do
  let (res, round, exp10) ← scientificParts est f prec
  let (res, exp10) ←
    if round = .up ∨ (round = .toEven ∧ endsOdd res) then
      (roundUpScientific res).map fun (s, carry) => (s, exp10 + carry)
    else some (res, exp10)
  return res ++ expMark :: intText exp10

/-- `format_scientific_exact`, src/conv/to_str/mod.rs:148-161 -/
def formatScientificExact (est : U256 → Int → Int) (f : F256) (expMark : BitVec 8) (prec : Nat) (form : FormatOptions) :
    Option (List (BitVec 8)) :=
  if prec ≤ 75 then do
    let s ← bin2DecScientific est (abs f) expMark prec
    return padIntegral f.isSignPositive s form
  else none

/-- `LowerExp` and `UpperExp` with a precision, src/conv/to_str/mod.rs:111-145; `format!("{:.*e}", prec, 0.)` of the standard
library writes `prec` zeroes behind the point -/
def scientificPrecWith (est : U256 → Int → Int) (f : F256) (expMark : BitVec 8) (prec : Nat) (form : FormatOptions) :
    Option (List (BitVec 8)) :=
  if f.isSpecial then
    if f.eqZero then
      let p := Nat.min prec 75
      some (padIntegral f.isSignPositive
        (48#8 :: (if p > 0 then 46#8 :: List.replicate p 48#8 else []) ++ [expMark, 48#8]) form)
    else if f.isNan then some (formatNan form)
    else some (padIntegral f.isSignPositive [105#8, 110#8, 102#8] form)
  else formatScientificExact est f expMark prec form

end F256

end Verif
