import Verif.Model.BigUInt

/-!
# Model of `src/big_uint/uint_generic/`

The generic double-width integer `UInt<SubUInt>` and its `BigUInt` instance.
-/

namespace Verif

open BigUInt

/-- src/big_uint/uint_generic/mod.rs:18-25 `struct UInt<SubUInt> { hi, lo }` -/
@[ext] structure UInt (α : Type) where
  hi : α
  lo : α
  deriving DecidableEq, Repr

namespace UInt

variable {α : Type} [BigUInt α]

/-- src/big_uint/uint_generic/mod.rs:147-150 -/
def zero : UInt α := ⟨ZERO, ZERO⟩
/-- src/big_uint/uint_generic/mod.rs:151-154 -/
def one : UInt α := ⟨ZERO, ONE⟩
/-- src/big_uint/uint_generic/mod.rs:155-158 -/
def two : UInt α := ⟨ZERO, TWO⟩
/-- src/big_uint/uint_generic/mod.rs:159-162 -/
def max : UInt α := ⟨MAX, MAX⟩

/-- derived `PartialEq`, src/big_uint/uint_generic/mod.rs:18 -/
def beq (x y : UInt α) : Bool := BigUInt.beq x.hi y.hi && BigUInt.beq x.lo y.lo

/-- derived `Ord` (lexicographic), src/big_uint/uint_generic/mod.rs:18 -/
def cmp (x y : UInt α) : Ordering := (BigUInt.cmp x.hi y.hi).then (BigUInt.cmp x.lo y.lo)

/-- src/big_uint/uint_generic/mod.rs:165-167 -/
def isEven (x : UInt α) : Bool := BigUInt.isEven x.lo

/-- src/big_uint/uint_generic/mod.rs:170-172 -/
def isOdd (x : UInt α) : Bool := BigUInt.isOdd x.lo

/-- src/big_uint/uint_generic/mod.rs:176-179 -/
def leadingZeros (x : UInt α) : Nat :=
  BigUInt.leadingZeros x.hi + (isZero x.hi).toNat * BigUInt.leadingZeros x.lo

/-- src/big_uint/uint_generic/mod.rs:183-186 -/
def trailingZeros (x : UInt α) : Nat :=
  BigUInt.trailingZeros x.lo + (isZero x.lo).toNat * BigUInt.trailingZeros x.hi

/-- src/big_uint/uint_generic/mod.rs:189-192 -/
def incr (x : UInt α) : UInt α :=
  let lo := BigUInt.wrappingAdd x.lo ONE
  ⟨incrIf x.hi (isZero lo), lo⟩

/-- src/big_uint/uint_generic/mod.rs:196-199 -/
def decr (x : UInt α) : UInt α :=
  ⟨decrIf x.hi (isZero x.lo), BigUInt.wrappingSub x.lo ONE⟩

/-- src/big_uint/uint_generic/mod.rs:203-207 -/
def overflowingAdd (x y : UInt α) : UInt α × Bool :=
  let (lo, carry) := BigUInt.overflowingAdd x.lo y.lo
  let (hi, carry) := carryingAdd x.hi y.hi carry
  (⟨hi, lo⟩, carry)

/-- src/big_uint/uint_generic/mod.rs:211-216 -/
def wrappingAdd (x y : UInt α) : UInt α :=
  let (lo, carry) := BigUInt.overflowingAdd x.lo y.lo
  let hi := BigUInt.wrappingAdd x.hi y.hi
  ⟨incrIf hi carry, lo⟩

/-- src/big_uint/uint_generic/mod.rs:220-224 -/
def overflowingSub (x y : UInt α) : UInt α × Bool :=
  let (lo, borrow) := BigUInt.overflowingSub x.lo y.lo
  let (hi, borrow) := borrowingSub x.hi y.hi borrow
  (⟨hi, lo⟩, borrow)

/-- src/big_uint/uint_generic/mod.rs:228-233 -/
def wrappingSub (x y : UInt α) : UInt α :=
  let (lo, borrow) := BigUInt.overflowingSub x.lo y.lo
  let hi := BigUInt.wrappingSub x.hi y.hi
  ⟨decrIf hi borrow, lo⟩

/-- src/big_uint/uint_generic/mod.rs:237-245 -/
def overflowingMul (x y : UInt α) : UInt α × Bool :=
  let (lo, carry) := BigUInt.wideningMul x.lo y.lo
  let (hi, o1) := carryingMul x.lo y.hi carry
  let (hi, o2) := carryingMul x.hi y.lo hi
  let ovl := !(isZero o1 && isZero o2 && (isZero x.hi || isZero y.hi))
  (⟨hi, lo⟩, ovl)

/-- src/big_uint/uint_generic/mod.rs:247-257 -/
def wideningMul (x y : UInt α) : UInt α × UInt α :=
  let (ll, carry) := BigUInt.wideningMul x.lo y.lo
  let (lh, hl) := carryingMul x.lo y.hi carry
  let (lh, carry) := carryingMul x.hi y.lo lh
  let (hl, ovfl) := BigUInt.overflowingAdd hl carry
  let (hl, hh) := carryingMul x.hi y.hi hl
  let hh := incrIf hh ovfl
  (⟨lh, ll⟩, ⟨hh, hl⟩)

/-- `impl Add for &UInt`, src/big_uint/uint_generic/binops/add.rs:44-48 -/
def add (x y : UInt α) : Option (UInt α) :=
  let (sum, carry) := overflowingAdd x y
  if carry then none else some sum

/-- `impl Sub for &UInt`, src/big_uint/uint_generic/binops/sub.rs:50-54 -/
def sub (x y : UInt α) : Option (UInt α) :=
  let (diff, borrow) := overflowingSub x y
  if borrow then none else some diff

/-- `impl Mul for &UInt`, src/big_uint/uint_generic/binops/mul.rs:50-66 -/
def mul (x y : UInt α) : Option (UInt α) :=
  if !(BigUInt.beq x.hi ZERO || BigUInt.beq y.hi ZERO) then none else
  let (lo, hi) := BigUInt.wideningMul x.lo y.lo
  let (t, ovfl) := BigUInt.overflowingMul x.lo y.hi
  if ovfl then none else
  let (hi, ovfl) := BigUInt.overflowingAdd hi t
  if ovfl then none else
  let (t, ovfl) := BigUInt.overflowingMul x.hi y.lo
  if ovfl then none else
  let (hi, ovfl) := BigUInt.overflowingAdd hi t
  if ovfl then none else
  some ⟨hi, lo⟩

/-- src/big_uint/uint_generic/binops/bitand.rs:28-33 -/
def and (x y : UInt α) : UInt α := ⟨BigUInt.and x.hi y.hi, BigUInt.and x.lo y.lo⟩

/-- src/big_uint/uint_generic/binops/bitor.rs:27-32 -/
def or (x y : UInt α) : UInt α := ⟨BigUInt.or x.hi y.hi, BigUInt.or x.lo y.lo⟩

/-- src/big_uint/uint_generic/binops/shl.rs:26-43 -/
def shl (x : UInt α) (shift : Nat) : UInt α :=
  if 0 < shift ∧ shift < BITS α then
    let (lo, carry) := wideningShl x.lo shift
    let (hi, _) := carryingShl x.hi shift carry
    ⟨hi, lo⟩
  else if shift = BITS α then ⟨x.lo, ZERO⟩
  else if shift > BITS α then ⟨BigUInt.shl x.lo (shift - BITS α), ZERO⟩
  else x

/-- src/big_uint/uint_generic/binops/shr.rs:27-44 -/
def shr (x : UInt α) (shift : Nat) : UInt α :=
  if 0 < shift ∧ shift < BITS α then
    let (hi, carry) := wideningShr x.hi shift
    let (lo, _) := carryingShr x.lo shift carry
    ⟨hi, lo⟩
  else if shift = BITS α then ⟨ZERO, x.hi⟩
  else if shift > BITS α then ⟨ZERO, BigUInt.shr x.hi (shift - BITS α)⟩
  else x

/-- The loop condition of src/big_uint/uint_generic/mod.rs:101-102 (and 124-125). -/
def divLoopCond (twoPowN y0 x q rhat : α) : Option Bool :=
  if ge q twoPowN then some true
  else do
    let l ← BigUInt.mul q y0
    let r ← BigUInt.mul rhat twoPowN
    let r ← BigUInt.add r x
    return gt l r

/-- The loop of src/big_uint/uint_generic/mod.rs:101-107 (and 124-130), on fuel. -/
def divLoop (twoPowN y1 y0 x : α) : Nat → α → α → Option (α × α)
  | 0, _, _ => none
  | fuel + 1, q, rhat => do
    let cond ← divLoopCond twoPowN y0 x q rhat
    if cond then
      let q := BigUInt.decr q
      let rhat ← BigUInt.add rhat y1
      if ge rhat twoPowN then return (q, rhat)
      else divLoop twoPowN y1 y0 x fuel q rhat
    else return (q, rhat)

/-- src/big_uint/uint_generic/mod.rs:78-138 (the loops get fuel 3; two iterations are
always enough, see `Proofs/DivRem.lean`) -/
def divRemSubuintSpecial (x : UInt α) (rhs : α) : Option (UInt α × α) := do
  let n := BITS α / 2
  let twoPowN := BigUInt.shl (ONE : α) n
  let shift := BigUInt.leadingZeros rhs
  let xs := shl x shift
  let x32 := xs.hi
  let x1 := hiHalf xs.lo
  let x0 := loHalf xs.lo
  let y := BigUInt.shl rhs shift
  let y1 := hiHalf y
  let y0 := loHalf y
  let (q1, rhat) ← BigUInt.divRem x32 y1
  let (q1, _) ← divLoop twoPowN y1 y0 x1 3 q1 rhat
  let t := joinLo x32 x1
  let t := BigUInt.wrappingSub t (wrappingMul q1 y)
  let (q0, rhat) ← BigUInt.divRem t y1
  let (q0, _) ← divLoop twoPowN y1 y0 x0 3 q0 rhat
  let q ← BigUInt.add (BigUInt.shl q1 n) q0
  let r := joinLo t x0
  let r := BigUInt.wrappingSub r (wrappingMul q0 y)
  let r := BigUInt.shr r shift
  return (⟨ZERO, q⟩, r)

/-- `DivRem<&SubUInt> for &UInt`, src/big_uint/uint_generic/binops/divrem.rs:70-84 -/
def divRemSub (x : UInt α) (rhs : α) : Option (UInt α × α) := do
  if isZero x.hi then
    let (quot, rem) ← BigUInt.divRem x.lo rhs
    return (⟨ZERO, quot⟩, rem)
  else if lt x.hi rhs then
    divRemSubuintSpecial x rhs
  else
    let (_, hr) ← BigUInt.divRem x.hi rhs
    let (quot, rem) ← divRemSubuintSpecial ⟨hr, x.lo⟩ rhs
    let (hq, _) ← BigUInt.divRem x.hi rhs
    return (⟨hq, quot.lo⟩, rem)

/-- `DivRem for &UInt`, src/big_uint/uint_generic/binops/divrem.rs:105-151, on fuel
(the code is recursive through `d.div_rem(*rhs)`). -/
def divRemFuel : Nat → UInt α → UInt α → Option (UInt α × UInt α)
  | 0, _, _ => none
  | fuel + 1, x, rhs => do
    if isZero rhs.hi then
      let (quot, rem) ← divRemSub x rhs.lo
      return (quot, ⟨ZERO, rem⟩)
    else if gt rhs.hi x.hi then
      return (zero, x)
    else
      let nlz := BigUInt.leadingZeros x.hi
      let (qe, _) ← BigUInt.divRem (shl x nlz).hi (shl rhs nlz).hi
      let quot : UInt α := ⟨ZERO, qe⟩
      let t ← mul rhs quot
      match cmp t x with
      | .gt =>
        let d ← sub t x
        let (n, _) ← divRemFuel fuel d rhs
        let n := incr n
        let quot ← sub quot n
        let d ← mul rhs n
        let t ← sub t d
        let rem ← sub x t
        return (quot, rem)
      | .lt =>
        let (_, ovl) := overflowingAdd t rhs
        if ovl then
          let d ← sub x t
          let (n, _) ← divRemFuel fuel d rhs
          let quot ← add quot n
          let d ← mul rhs n
          let t ← add t d
          let rem ← sub x t
          return (quot, rem)
        else
          let rem ← sub x t
          return (quot, rem)
      | .eq => return (quot, zero)

/-- `DivRem for UInt`, src/big_uint/uint_generic/binops/divrem.rs:93-96 -/
def divRem (x rhs : UInt α) : Option (UInt α × UInt α) :=
  divRemFuel (2 * BITS α + 2) x rhs

/-- src/big_uint/uint_generic/mod.rs:260-267 -/
def roundingDiv (x rhs : UInt α) : Option (UInt α) := do
  let (quot, rem) ← divRem x rhs
  let tie := shr rhs 1
  if cmp rem tie == .gt || (beq rem tie && BigUInt.isOdd quot.lo) then
    return incr quot
  return quot

/-- `widening_shr` of src/big_uint/mod.rs:220-226 at `Self = UInt<SubUInt>` -/
def wideningShr (x : UInt α) (shift : Nat) : UInt α × UInt α :=
  match shift with
  | 0 => (x, zero)
  | _ => (shr x shift, shl x (2 * BITS α - shift))

/-- src/big_uint/uint_generic/mod.rs:270-280 -/
def roundingDivPow2 (x : UInt α) (n : Nat) : UInt α :=
  let tie : UInt α := ⟨BigUInt.shl ONE (BITS α - 1), ZERO⟩
  let (quot, rem) := wideningShr x n
  if cmp rem tie == .gt || (beq rem tie && BigUInt.isOdd quot.lo) then incr quot else quot

/-- src/big_uint/uint_generic/mod.rs:283-299 -/
def remPow2 (x : UInt α) (n : Nat) : UInt α :=
  if n = 0 then zero
  else if n < BITS α then
    let sh := BITS α - n
    ⟨ZERO, BigUInt.shr (BigUInt.shl x.lo sh) sh⟩
  else if n = BITS α then ⟨ZERO, x.lo⟩
  else if n > BITS α ∧ n < 2 * BITS α then
    let sh := 2 * BITS α - n
    ⟨BigUInt.shr (BigUInt.shl x.hi sh) sh, x.lo⟩
  else x

/-- src/big_uint/uint_generic/mod.rs:302-336 `From<&SubUInt>` -/
def ofSub (v : α) : UInt α := ⟨ZERO, v⟩

/-- src/big_uint/uint_generic/mod.rs:27-62 and 141-350 `impl HiLo / BigUInt for UInt` -/
instance : BigUInt (UInt α) where
  BITS := 2 * BITS α
  ZERO := zero
  ONE := one
  TWO := two
  MAX := max
  beq := beq
  cmp := cmp
  isEven := isEven
  isOdd := isOdd
  leadingZeros := leadingZeros
  trailingZeros := trailingZeros
  incr := incr
  decr := decr
  overflowingAdd := overflowingAdd
  wrappingAdd := wrappingAdd
  overflowingSub := overflowingSub
  wrappingSub := wrappingSub
  overflowingMul := overflowingMul
  wideningMul := wideningMul
  add := add
  sub := sub
  mul := mul
  and := and
  or := or
  shl := shl
  shr := shr
  divRem := divRem
  roundingDiv := roundingDiv
  roundingDivPow2 := roundingDivPow2
  remPow2 := remPow2
  ofU128 v := ⟨ZERO, ofU128 v⟩
  hiHalf x := ⟨ZERO, x.hi⟩
  loHalf x := ⟨ZERO, x.lo⟩
  joinLo a b := ⟨a.lo, b.lo⟩
  toVec x := toVec x.hi ++ toVec x.lo
  ofVec l := ⟨ofVec (l.take (l.length / 2)), ofVec (l.drop (l.length / 2))⟩

end UInt

/-- src/big_uint/uint_generic/mod.rs:393 -/
abbrev U256 := UInt U128
/-- src/big_uint/uint_generic/mod.rs:458 -/
abbrev U512 := UInt U256
/-- src/big_uint/uint_generic/mod.rs :471 -/
abbrev U1024 := UInt U512

end Verif
