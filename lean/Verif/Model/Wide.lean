import Verif.Model.UInt

/-!
# Model of the remaining wide integer functions

`src/big_uint/mod.rs` (`imul10_add`, `rounding_div_pow10`), the divisions by `u128` and `u64`.
-/

namespace Verif

open BigUInt

/-- The integer types built in src/big_uint/uint_generic/mod.rs:393-471: `Wide 0` is `U128`,
`Wide 1` is `U256`, `Wide 2` is `U512`, `Wide 3` is `U1024`, and so on. -/
def Wide : Nat → Type
  | 0 => U128
  | n + 1 => UInt (Wide n)

/-- The `BigUInt` implementation at each of these types. -/
@[instance_reducible] def Wide.inst : (n : Nat) → BigUInt (Wide n)
  | 0 => inferInstanceAs (BigUInt U128)
  | n + 1 => @UInt.instBigUInt (Wide n) (Wide.inst n)

instance (n : Nat) : BigUInt (Wide n) := Wide.inst n

section
variable {α : Type} [BigUInt α]

/-- The loop of src/big_uint/uint_generic/binops/divrem.rs:41-46: `chunks[1..]` are divided from
the most significant one, `rem` is carried along. -/
def divChunks (rhs : U128) : U128 → List U128 → Option (List U128 × U128)
  | rem, [] => some ([], rem)
  | rem, c :: cs => do
    let (t, rem) ← UInt.divRemSub (⟨rem, c⟩ : U256) rhs
    let (qs, rem) ← divChunks rhs rem cs
    return (t.lo :: qs, rem)

/-- `DivRem<&u128> for &UInt`, src/big_uint/uint_generic/binops/divrem.rs:36-48 -/
def UInt.divRemU128 (x : UInt α) (rhs : U128) : Option (UInt α × U128) :=
  match toVec x with
  | [] => none
  | c :: cs => do
    let (q0, rem) ← U128.divRem c rhs
    let (qs, rem) ← divChunks rhs rem cs
    return (ofVec (q0 :: qs), rem)

end

/-- `DivRem<u64> for &U256`, src/big_uint/uint_generic/mod.rs:446-455 (`rem as u64` keeps the low
64 bits) -/
def divRemU64 (x : U256) (rhs : BitVec 64) : Option (U256 × BitVec 64) := do
  let (quotHi, rem) ← U128.divRem x.hi (rhs.setWidth 128)
  let t : U256 := ⟨rem, x.lo⟩
  let (t, rem) ← UInt.divRemU128 t (rhs.setWidth 128)
  return (⟨quotHi, t.lo⟩, rem.setWidth 64)

/-- src/big_uint/mod.rs:237-258 -/
def imul10Add (x : U256) (d : BitVec 8) : U256 :=
  let ll := U128.lo64 x.lo
  let lh := U128.hi64 x.lo
  let hl := U128.lo64 x.hi
  let hh := U128.hi64 x.hi
  let t := ll * 10 + d.setWidth 128
  let lo := U128.lo64 t
  let t := lh * 10 + U128.hi64 t
  let lo := lo + (t <<< 64)
  let t := hl * 10 + U128.hi64 t
  let hi := U128.lo64 t
  let t := hh * 10 + U128.hi64 t
  let hi := hi + (t <<< 64)
  ⟨hi, lo⟩

/-- The chunk loop of src/big_uint/mod.rs:279-282 -/
def divPow10Chunks : Nat → U512 → Bool → Option (U512 × Bool)
  | 0, q, z => some (q, z)
  | k + 1, q, z => do
    let (q, r) ← UInt.divRemU128 q (BitVec.ofNat 128 (10 ^ 38))
    divPow10Chunks k q (z && r == 0)

/-- src/big_uint/mod.rs:262-290 -/
def roundingDivPow10 (x : U512) (n : Nat) : Option U512 :=
  if n ≤ 38 then do
    let d : U128 := BitVec.ofNat 128 (10 ^ n)
    let (q, r) ← UInt.divRemU128 x d
    let tie := d >>> 1
    if r > tie || (r == tie && UInt.isOdd q) then return UInt.incr q
    return q
  else do
    let nChunks := (n - 1) / 38
    let (q, allZero) ← divPow10Chunks nChunks x true
    let d : U128 := BitVec.ofNat 128 (10 ^ (n - nChunks * 38))
    let (q, r) ← UInt.divRemU128 q d
    let tie := d >>> 1
    if r > tie || (r == tie && (UInt.isOdd q || !allZero)) then return UInt.incr q
    return q

end Verif
