import Verif.Model.F256

/-!
# Model of `src/conv/from_int.rs` and `src/conv/from_float.rs`

Signed integers are bit vectors in two's complement; `as` casts are sign or zero extension.
`debug_assert`s are absent (release build).
-/

namespace Verif

open BigUInt

/-- `u128::leading_zeros` -/
def lz128 (j : BitVec 128) : Nat := U128.leadingZeros j

namespace F256

/-- src/conv/from_int.rs:19-31 -/
def fromI64 (i : BitVec 64) : F256 :=
  if i = 0 then ZERO
  else
    let j := (i.signExtend 128).abs
    let msb := 127 - lz128 j
    F256.new i.msb.toNat msb (U256.new (j <<< (HI_FRACTION_BITS - msb)) 0)

/-- src/conv/from_int.rs:37-51. `checked_abs` is `None` for `i128::MIN` only. -/
def fromI128 (i : BitVec 128) : F256 :=
  if i = 0 then ZERO
  else
    let j := if i = BitVec.intMin 128 then i else i.abs
    let msb := 127 - lz128 j
    F256.new i.msb.toNat msb (U256.shiftLeft (U256.new 0 j) (FRACTION_BITS - msb))

/-- src/conv/from_int.rs:56-66 -/
def fromU64 (i : BitVec 64) : F256 :=
  if i = 0 then ZERO
  else
    let msb := 127 - lz128 (i.setWidth 128)
    F256.new 0 msb (U256.new (i.setWidth 128 <<< (HI_FRACTION_BITS - msb)) 0)

/-- src/conv/from_int.rs:71-81 -/
def fromU128 (i : BitVec 128) : F256 :=
  if i = 0 then ZERO
  else
    let msb := 127 - lz128 i
    F256.new 0 msb (U256.shiftLeft (U256.new 0 i) (FRACTION_BITS - msb))

/-- src/conv/from_int.rs:86-93 -/
def fromU256 (i : U256) : F256 :=
  if U256.isZero i then ZERO
  else
    let m := BigUInt.msb i
    F256.new 0 m (U256.shiftLeft i (FRACTION_BITS - m))

/-- src/conv/from_int.rs:96-112 `From<i8>`, `From<i16>`, `From<i32>`, `From<i64>`
(`w = 8, 16, 32, 64`) -/
def fromSigned {w : Nat} (i : BitVec w) : F256 := fromI64 (i.signExtend 64)

/-- src/conv/from_int.rs:176-192 `From<u8>`, `From<u16>`, `From<u32>`, `From<u64>`
(`w = 8, 16, 32, 64`) -/
def fromUnsigned {w : Nat} (i : BitVec w) : F256 := fromU64 (i.setWidth 64)

end F256

/-! ## `trait Float` of src/conv/from_float.rs:19-46, for a given `PREC_LEVEL` -/

/-- src/conv/from_float.rs:15-17 -/
def floatMin (x y : Nat) : Nat := x - (x - y)

/-- src/conv/from_float.rs:23 -/
def floatTotalBits (prec : Nat) : Nat := 1 <<< prec
/-- src/conv/from_float.rs:25 -/
def floatExpBits (prec : Nat) : Nat := 4 * prec - floatMin 6 prec - 7
/-- src/conv/from_float.rs:27 -/
def floatFractionBits (prec : Nat) : Nat := floatTotalBits prec - floatExpBits prec - 1
/-- src/conv/from_float.rs:29 -/
def floatBiasedExpMax (prec : Nat) : Nat := (1 <<< floatExpBits prec) - 1
/-- src/conv/from_float.rs:31-32 -/
def floatExpBiasAdj (prec : Nat) : Nat := (floatBiasedExpMax prec >>> 1) + floatFractionBits prec
/-- src/conv/from_float.rs:34 -/
def floatFractionMask (prec : Nat) : BitVec 64 := (1 <<< floatFractionBits prec) - 1
/-- src/conv/from_float.rs:36 -/
def floatFractionBias (prec : Nat) : BitVec 64 := 1 <<< floatFractionBits prec
/-- src/conv/from_float.rs:38 -/
def floatSignShift (prec : Nat) : Nat := floatTotalBits prec - 1
/-- src/conv/from_float.rs:40 -/
def floatSignMask (prec : Nat) : BitVec 64 := 1 <<< floatSignShift prec
/-- src/conv/from_float.rs:42 -/
def floatAbsMask (prec : Nat) : BitVec 64 := ~~~ (floatSignMask prec)
/-- src/conv/from_float.rs:44 -/
def floatInf (prec : Nat) : BitVec 64 :=
  BitVec.ofNat 64 (floatBiasedExpMax prec) <<< floatFractionBits prec

namespace F256

/-- src/conv/from_float.rs:67-102 on the raw bits of the float (`to_bits() as u64`); the array
lookups `[a, b][sign as usize]` cannot be out of bounds because the sign is a single bit -/
def fromFloat (prec : Nat) (bits : BitVec 64) : F256 :=
  let abs := bits &&& floatAbsMask prec
  let sign := (bits >>> floatSignShift prec).toNat
  if floatFractionBias prec ≤ abs ∧ abs < floatInf prec then
    let exp : Int := ((abs >>> floatFractionBits prec).toNat : Int) - floatExpBiasAdj prec
    let significand := U256.new 0
      (((bits &&& floatFractionMask prec) ||| floatFractionBias prec).setWidth 128)
    encode sign exp significand
  else if abs = 0 then if sign = 0 then ZERO else NEG_ZERO
  else if abs < floatFractionBias prec then
    encode sign (1 - (floatExpBiasAdj prec : Int))
      (U256.new 0 ((bits &&& floatFractionMask prec).setWidth 128))
  else if abs = floatInf prec then if sign = 0 then INFINITY else NEG_INFINITY
  else if sign = 0 then NAN else NAN.negated

/-- `From<f32>`: src/conv/from_float.rs:48-55, 67-102 -/
def fromF32 (bits : BitVec 32) : F256 := fromFloat 5 (bits.setWidth 64)

/-- `From<f64>`: src/conv/from_float.rs:57-64, 67-102 -/
def fromF64 (bits : BitVec 64) : F256 := fromFloat 6 bits

end F256
end Verif
