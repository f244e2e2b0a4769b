import Verif.Model.F256

/-!
# Model of `src/conv/from_str/common.rs`, part 1: chunks of 8 characters as 64-bit words

The first character of the string is the lowest byte of the word (little endian).
-/

namespace Verif

/-- src/conv/from_str/common.rs:14-25 -/
def chunkContains8Digits (chunk : BitVec 64) : Bool :=
  let x := chunk - 0x3030303030303030
  let y := chunk + 0x4646464646464646
  decide ((x ||| y) &&& 0x8080808080808080 = 0)

/-- `u64::leading_zeros` -/
def lz64 (x : BitVec 64) : Nat := if x.toNat = 0 then 64 else 63 - x.toNat.log2

/-- `u64::count_ones` -/
def popcount64 (x : BitVec 64) : Nat := ((List.range 64).filter fun i => x.getLsbD i).length

/-- src/conv/from_str/common.rs:32-52 -/
def chunkContains7DigitsAndADotAt (chunk : BitVec 64) : Option Nat :=
  let x := chunk ^^^ 0x2e2e2e2e2e2e2e2e
  let y := x - 0x0101010101010101
  let z := y &&& (~~~x &&& 0x8080808080808080)
  if popcount64 z = 1 then
    let n := lz64 z
    let chunk := chunk + ((2 : BitVec 64) <<< (64 - 8 - n))
    if chunkContains8Digits chunk then some (n / 8) else none
  else none

/-- src/conv/from_str/common.rs:56-69 -/
def chunkToU64 (chunk : BitVec 64) : BitVec 64 :=
  let chunk := chunk &&& 0x0f0f0f0f0f0f0f0f
  let chunk := (chunk &&& 0x000f000f000f000f) * 10 + ((chunk >>> 8) &&& 0x000f000f000f000f)
  let chunk := (chunk &&& 0x0000007f0000007f) * 100 + ((chunk >>> 16) &&& 0x0000007f0000007f)
  (chunk &&& 0x3fff) * 10000 + ((chunk >>> 32) &&& 0x3fff)

/-- src/conv/from_str/float_repr.rs:22-33 -/
def eliminateByteFromChunk (k : BitVec 64) (p : Nat) : BitVec 64 :=
  if p = 0 then (k <<< 8) >>> 8
  else if p ≤ 6 then
    (k &&& (0xffffffffffffffff >>> (8 * (p + 1)))) |||
      ((k &&& (0xffffffffffffffff <<< (8 * (8 - p)))) >>> 8)
  else k >>> 8

/-- src/conv/from_str/common.rs:160-174: 8 bytes as a little endian word -/
def readU64 (s : List (BitVec 8)) : Option (BitVec 64) :=
  match s with
  | b0 :: b1 :: b2 :: b3 :: b4 :: b5 :: b6 :: b7 :: _ =>
    some (b7 ++ b6 ++ b5 ++ b4 ++ b3 ++ b2 ++ b1 ++ b0)
  | _ => none

end Verif
