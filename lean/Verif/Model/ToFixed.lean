import Verif.Model.ToStr
import Verif.Model.Integral

/-!
# Model of the fixed-point part of `src/conv/to_str/to_fixed_prec.rs`, and of formatting with a precision

Texts are lists of bytes. `none` is a panic. The table lives in the crate `f256_pow10_div_pow2_lut`, whose source is not
part of the repository. It is modelled by the script which generates it, `analysis/gen_ryu_print_helper_tables.py`.
-/

namespace Verif

open BigUInt

/-- src/conv/to_str/to_fixed_prec.rs:40-45 -/
inductive Rounding where
  | up | toEven | down
deriving DecidableEq

/-- `CHUNK_SIZE`, analysis/gen_ryu_print_helper_tables.py:22 -/
def CHUNK_SIZE : Nat := 19

/-- `BITS`, analysis/gen_ryu_print_helper_tables.py:24-25: `384 - 16 - ⌈log2 10^19⌉` -/
def TABLE_BITS : Nat := 304

/-- Lowest exponent of a segment, analysis/gen_ryu_print_helper_tables.py:111-112 -/
def segmentLower (segment : Nat) : Int := -((segment + 7 : Nat) : Int) * 32 - 31

/-- Shift of a segment, analysis/gen_ryu_print_helper_tables.py:113 -/
def segmentShift (segment : Nat) : Int := TABLE_BITS + segmentLower segment

/-- `calc_n_zero_chunks` for the highest exponent of a segment, analysis/gen_ryu_print_helper_tables.py:97-99, 111, 117: the
number of complete chunks of zeroes in front of the digits of a number below `2^(exp + 237)`. The script computes
`log10 2` with floating point numbers, here it is `169464822037455 / 2^49` as in src/conv/to_str/common.rs:18. -/
def segmentZeroChunks (segment : Nat) : Nat := ((segment + 7) * 32 - 237) * 169464822037455 / 2 ^ 49 / CHUNK_SIZE

/-- `get_pow10_div_pow2_params` of the crate, for exponents below `-236`: the index of the segment, the number of chunks
of zeroes, and the shift -/
def pow10DivPow2Params (exp2 : Int) : Nat × Nat × Int :=
  let segment := (-exp2).toNat / 32 - 7
  (segment, segmentZeroChunks segment, segmentShift segment)

/-- `lookup_pow10_div_pow2` of the crate, analysis/gen_ryu_print_helper_tables.py:119-122, and
src/conv/to_str/to_fixed_prec.rs:70-74 -/
def pow10DivPow2 (segment chunk : Nat) : U512 :=
  let shift := segmentShift segment
  let c := segmentZeroChunks segment + chunk + 1
  u512OfNat (10 ^ (c * CHUNK_SIZE) * 2 ^ shift.toNat / 2 ^ (-shift).toNat % (10 ^ CHUNK_SIZE * 2 ^ TABLE_BITS))

/-- src/conv/to_str/to_fixed_prec.rs:48-62. The result is below `10^19`, so nothing is lost by `as u64`. -/
def mulShiftMod (x : U256) (y : U512) (k : Nat) : Option Nat := do
  let t := UInt.wideningMul x y.hi
  let res : U512 := ⟨t.2, t.1⟩
  let t := UInt.wideningMul x y.lo
  let (lo, carry) := UInt.overflowingAdd res.lo t.2
  let res : U512 := ⟨if carry then UInt.incr res.hi else res.hi, lo⟩
  let res := UInt.shr res (k - 256)
  let (_, r) ← UInt.divRemU128 res (BitVec.ofNat 128 (10 ^ CHUNK_SIZE))
  return r.toNat

/-- The loop of src/conv/to_str/to_fixed_prec.rs:104-110 for the chunks in front of the last one: `n` chunks from
`chunk` on -/
def fractChunks (signif2 : U256) (segment shift : Nat) : Nat → Nat → Option (List (BitVec 8))
  | 0, _ => some []
  | n + 1, chunk => do
    let c ← mulShiftMod signif2 (pow10DivPow2 segment chunk) shift
    let rest ← fractChunks signif2 segment shift n (chunk + 1)
    return natTextPad CHUNK_SIZE c ++ rest

/-- src/conv/to_str/to_fixed_prec.rs:80-147: the digits, and how to round -/
def binFract2DecStr (signif2 : U256) (exp2 : Int) (prec : Nat) : Option (List (BitVec 8) × Rounding) := do
  let nChunks := prec / CHUNK_SIZE + 1
  let (segment, nZeroChunks, segmentShift) := pow10DivPow2Params exp2
  let shift := (segmentShift - exp2).toNat
  if nChunks ≤ nZeroChunks then return (List.replicate prec 48#8, .down)
  let zeroes := List.replicate (nZeroChunks * CHUNK_SIZE) 48#8
  let nSignifChunks := nChunks - nZeroChunks
  let full ← fractChunks signif2 segment shift (nSignifChunks - 1) 0
  let chunk ← mulShiftMod signif2 (pow10DivPow2 segment (nSignifChunks - 1)) shift
  let nDigits := prec - (nChunks - 1) * CHUNK_SIZE
  let d := 10 ^ (CHUNK_SIZE - nDigits)
  let rem := chunk % d
  let chunk := chunk / d
  let tie := d / 2
  let round :=
    if rem > tie then Rounding.up
    else if rem = tie then
      if (UInt.trailingZeros signif2 : Int) ≥ -exp2 - prec - 1 then Rounding.toEven else Rounding.up
    else Rounding.down
  return (zeroes ++ full ++ (if nDigits > 0 then natTextPad nDigits chunk else []), round)

/-- The loop of src/conv/to_str/to_fixed_prec.rs:158-168, on the reversed text -/
def roundUpRev : List (BitVec 8) → Option (List (BitVec 8))
  | [] => none
  | c :: cs =>
    if c = 57#8 then (roundUpRev cs).map (48#8 :: ·)
    else if c = 46#8 then (roundUpRev cs).map (46#8 :: ·)
    else some ((c + 1) :: cs)

/-- src/conv/to_str/to_fixed_prec.rs:151-170 -/
def roundUpFixedPoint (num : List (BitVec 8)) : Option (List (BitVec 8)) :=
  (roundUpRev num.reverse).map List.reverse

/-- `res.ends_with(['1', '3', '5', '7', '9'])` -/
def endsOdd (s : List (BitVec 8)) : Bool :=
  match s.getLast? with
  | some c => c == 49#8 || c == 51#8 || c == 53#8 || c == 55#8 || c == 57#8
  | none => false

namespace F256

/-- src/conv/to_str/to_fixed_prec.rs:213-222: significand and exponent of the fraction -/
def fractArgs (fp : F256) : U256 × Int :=
  let exp2 := fp.quantumExponent
  let signif2 := fp.integralSignificand
  if exp2 < EMIN then
    let adj := 237 - BigUInt.msb signif2
    (UInt.shl signif2 adj, exp2 - (adj : Int))
  else (signif2, exp2)

/-- src/conv/to_str/to_fixed_prec.rs:178-236 (the capacity of the buffer is left out) -/
def bin2DecFixedPoint (f : F256) (prec : Nat) : Option (List (BitVec 8)) := do
  let exp2 := f.quantumExponent
  let ntz : Int := UInt.trailingZeros f.integralSignificand
  let (isLessThanOne, isInt, ip, fp) ←
    if exp2 ≥ -ntz then some (false, true, f, ZERO)
    else if exp2 < -236 then some (true, false, ZERO, f)
    else (split f).map fun (ip, fp) => (false, false, ip, fp)
  let int ← if isLessThanOne then some [48#8] else display ip
  let res := 48#8 :: int ++ (if prec > 0 then [46#8] else [])
  let (res, round) ←
    if isInt then some (res ++ List.replicate prec 48#8, Rounding.down)
    else do
      let (s, round) ← binFract2DecStr (fractArgs fp).1 (fractArgs fp).2 prec
      some (res ++ s, round)
  if round = .up ∨ (round = .toEven ∧ endsOdd res) then roundUpFixedPoint res
  else return res

/-- src/conv/to_str/mod.rs:60-72, without other options than the precision -/
def formatExact (f : F256) (prec : Nat) : Option (List (BitVec 8)) :=
  if prec ≤ 75 then do
    let s ← bin2DecFixedPoint (abs f) prec
    let s := if s.head? = some 48#8 then s.drop 1 else s
    return (if f.isSignPositive then [] else [45#8]) ++ s
  else none

/-- The text written by `{:.prec}`, src/conv/to_str/mod.rs:46-57, 87-96. Zero is formatted by the standard library. -/
def displayPrec (f : F256) (prec : Nat) : Option (List (BitVec 8)) :=
  if f.isSpecial then
    if f.eqZero then
      let p := Nat.min prec 75
      some ((if f.isSignPositive then [] else [45#8]) ++ 48#8 :: (if p > 0 then 46#8 :: List.replicate p 48#8 else []))
    else if f.isNan then some [78#8, 97#8, 78#8]
    else some ((if f.isSignPositive then [] else [45#8]) ++ [105#8, 110#8, 102#8])
  else f.formatExact prec

end F256

end Verif
