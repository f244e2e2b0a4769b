/-!
# Model of `src/big_uint/mod.rs` and `src/big_uint/uint128.rs`

The trait `BigUInt` (together with the parts of `HiLo` and `DivRem` that the generic
code uses) as a Lean class, its default methods, and its base instance `U128`.

Conventions: see DESIGN.md. A result of `none` is a panic. `&mut self` methods are
functions returning the new value.
-/

namespace Verif

/-- src/big_uint/uint128.rs:31-32 `struct U128(pub(crate) u128)`. The newtype wrapper is
dropped: a `U128` is its 128-bit word. -/
abbrev U128 := BitVec 128

/-- src/big_uint/mod.rs:27-234, the required methods of the traits `HiLo`, `DivRem` and
`BigUInt` that the generic code relies on.
Simplifications: `HiLo::from_hi_lo(a.lo_t(), b.lo_t())`, the only way the generic code uses
`lo_t`/`from_hi_lo` of the sub-integer, is the single operation `joinLo a b`;
`shl`/`shr` take the shift count as `Nat` (`u32` in the code). -/
class BigUInt (α : Type) where
  /-- mod.rs:85 `const BITS` -/
  BITS : Nat
  /-- mod.rs:86 -/
  ZERO : α
  /-- mod.rs:87 -/
  ONE : α
  /-- mod.rs:88 -/
  TWO : α
  /-- mod.rs:89 -/
  MAX : α
  /-- `PartialEq` -/
  beq : α → α → Bool
  /-- `Ord::cmp` -/
  cmp : α → α → Ordering
  /-- mod.rs:98 -/
  isEven : α → Bool
  /-- mod.rs:101 -/
  isOdd : α → Bool
  /-- mod.rs:105 -/
  leadingZeros : α → Nat
  /-- mod.rs:109 -/
  trailingZeros : α → Nat
  /-- mod.rs:119 -/
  incr : α → α
  /-- mod.rs:128 -/
  decr : α → α
  /-- mod.rs:139 -/
  overflowingAdd : α → α → α × Bool
  /-- mod.rs:151 -/
  wrappingAdd : α → α → α
  /-- mod.rs:155 -/
  overflowingSub : α → α → α × Bool
  /-- mod.rs:167 -/
  wrappingSub : α → α → α
  /-- mod.rs:171 -/
  overflowingMul : α → α → α × Bool
  /-- mod.rs:174, result is `(low, high)` -/
  wideningMul : α → α → α × α
  /-- `Add`, panics on overflow -/
  add : α → α → Option α
  /-- `Sub`, panics on overflow -/
  sub : α → α → Option α
  /-- `Mul`, panics on overflow -/
  mul : α → α → Option α
  /-- `BitAnd` -/
  and : α → α → α
  /-- `BitOr` -/
  or : α → α → α
  /-- `Shl<u32>` -/
  shl : α → Nat → α
  /-- `Shr<u32>` -/
  shr : α → Nat → α
  /-- `DivRem<Self>`, panics on division by zero (and on internal overflow) -/
  divRem : α → α → Option (α × α)
  /-- mod.rs:195 -/
  roundingDiv : α → α → Option α
  /-- mod.rs:198 -/
  roundingDivPow2 : α → Nat → α
  /-- mod.rs:201 -/
  remPow2 : α → Nat → α
  /-- `From<&u128>` -/
  ofU128 : BitVec 128 → α
  /-- `HiLo::hi`: the upper half, as a `Self` -/
  hiHalf : α → α
  /-- `HiLo::lo`: the lower half, as a `Self` -/
  loHalf : α → α
  /-- `HiLo::from_hi_lo(a.lo_t(), b.lo_t())` -/
  joinLo : α → α → α
  /-- `HiLo::as_vec_u128` -/
  toVec : α → List (BitVec 128)
  /-- `From<&[u128]>` (the length is an invariant of the callers) -/
  ofVec : List (BitVec 128) → α

namespace BigUInt

variable {α : Type} [BigUInt α]

/-- `PartialOrd::lt` derived from `Ord`. -/
def lt (a b : α) : Bool := cmp a b == .lt
/-- `PartialOrd::gt` derived from `Ord`. -/
def gt (a b : α) : Bool := cmp a b == .gt
/-- `PartialOrd::ge` derived from `Ord`. -/
def ge (a b : α) : Bool := cmp a b != .lt
/-- `PartialOrd::le` derived from `Ord`. -/
def le (a b : α) : Bool := cmp a b != .gt

/-- `cond as u128` -/
def boolU128 (b : Bool) : U128 := if b then 1 else 0

/-- src/big_uint/mod.rs:93-95 -/
def isZero (x : α) : Bool := beq x ZERO

/-- src/big_uint/mod.rs:113-116 (`debug_assert!` dropped; `u32` subtraction as `Nat`
subtraction, in range for non-zero arguments; for zero the code's release build wraps to
`u32::MAX`, the model gives 0) -/
def msb (x : α) : Nat := (BITS α) - leadingZeros x - 1

/-- src/big_uint/mod.rs:123-125 -/
def incrIf (x : α) (cond : Bool) : α := wrappingAdd x (ofU128 (boolU128 cond))

/-- src/big_uint/mod.rs:133-135 -/
def decrIf (x : α) (cond : Bool) : α := wrappingSub x (ofU128 (boolU128 cond))

/-- src/big_uint/mod.rs:143-147 -/
def carryingAdd (x rhs : α) (carry : Bool) : α × Bool :=
  let (t, o1) := overflowingAdd x rhs
  let (t, o2) := overflowingAdd t (ofU128 (boolU128 carry))
  (t, o1 || o2)

/-- src/big_uint/mod.rs:159-163 -/
def borrowingSub (x rhs : α) (borrow : Bool) : α × Bool :=
  let (t, o1) := overflowingSub x rhs
  let (t, o2) := overflowingSub t (ofU128 (boolU128 borrow))
  (t, o1 || o2)

/-- src/big_uint/mod.rs:177-182 -/
def carryingMul (x rhs carry : α) : α × α :=
  let (rl, rh) := wideningMul x rhs
  let (rl, ovfl) := overflowingAdd rl carry
  (rl, incrIf rh ovfl)

/-- src/big_uint/mod.rs:185-187 -/
def truncatingMul (x rhs : α) : α := (wideningMul x rhs).2

/-- src/big_uint/mod.rs:190-192 -/
def wrappingMul (x rhs : α) : α := (wideningMul x rhs).1

/-- src/big_uint/mod.rs:204-210 -/
def wideningShl (x : α) (shift : Nat) : α × α :=
  match shift with
  | 0 => (x, ZERO)
  | _ => (shl x shift, shr x (BITS α - shift))

/-- src/big_uint/mod.rs:213-217 -/
def carryingShl (x : α) (shift : Nat) (carry : α) : α × α :=
  (or (shl x shift) carry, shr x (BITS α - shift))

/-- src/big_uint/mod.rs:220-226 -/
def wideningShr (x : α) (shift : Nat) : α × α :=
  match shift with
  | 0 => (x, ZERO)
  | _ => (shr x shift, shl x (BITS α - shift))

/-- src/big_uint/mod.rs:229-233 -/
def carryingShr (x : α) (shift : Nat) (carry : α) : α × α :=
  (or carry (shr x shift), shl x (BITS α - shift))

end BigUInt

/-! ## The base instance -/

namespace U128

/-- src/big_uint/uint128.rs:22-24 -/
def hi64 (u : U128) : U128 := u >>> 64

/-- src/big_uint/uint128.rs:27-29 -/
def lo64 (u : U128) : U128 := u &&& 0xffffffffffffffff

/-- `u128::leading_zeros` (src/big_uint/uint128.rs:93-95) -/
def leadingZeros (x : U128) : Nat := if x.toNat = 0 then 128 else 127 - x.toNat.log2

/-- Number of trailing zero bits among the lowest `fuel` bits. -/
def ctz : Nat → Nat → Nat
  | 0, _ => 0
  | fuel + 1, n => if n % 2 = 1 then 0 else 1 + ctz fuel (n / 2)

/-- `u128::trailing_zeros` (src/big_uint/uint128.rs:98-100) -/
def trailingZeros (x : U128) : Nat := ctz 128 x.toNat

/-- `u128::overflowing_add` (src/big_uint/uint128.rs:115-118) -/
def overflowingAdd (x y : U128) : U128 × Bool := (x + y, decide (2 ^ 128 ≤ x.toNat + y.toNat))

/-- `u128::overflowing_sub` (src/big_uint/uint128.rs:126-129) -/
def overflowingSub (x y : U128) : U128 × Bool := (x - y, decide (x.toNat < y.toNat))

/-- `u128::overflowing_mul` (src/big_uint/uint128.rs:137-140) -/
def overflowingMul (x y : U128) : U128 × Bool := (x * y, decide (2 ^ 128 ≤ x.toNat * y.toNat))

/-- src/big_uint/uint128.rs:143-157 -/
def wideningMul (x y : U128) : U128 × U128 :=
  let xh := hi64 x
  let xl := lo64 x
  let yh := hi64 y
  let yl := lo64 y
  let rl := xl * yl
  let t1 := xl * yh
  let t2 := xh * yl
  let rh := xh * yh
  let (t1, carry) := overflowingAdd t1 t2
  let rh := rh + ((BigUInt.boolU128 carry <<< 64) + hi64 t1)
  let (rl, carry) := overflowingAdd rl (lo64 t1 <<< 64)
  let rh := rh + BigUInt.boolU128 carry
  (rl, rh)

/-- `Add for U128` (src/big_uint/uint128.rs:217); overflow panics in debug builds and wraps
in release builds, the model is strict. -/
def add (x y : U128) : Option U128 := if x.toNat + y.toNat < 2 ^ 128 then some (x + y) else none

/-- `Sub for U128` (src/big_uint/uint128.rs:225), strict. -/
def sub (x y : U128) : Option U128 := if y.toNat ≤ x.toNat then some (x - y) else none

/-- `Mul for U128` (src/big_uint/uint128.rs:222), strict. -/
def mul (x y : U128) : Option U128 := if x.toNat * y.toNat < 2 ^ 128 then some (x * y) else none

/-- `u128 << u32` (src/big_uint/uint128.rs:223); the release build masks the shift count. -/
def shl (x : U128) (n : Nat) : U128 := x <<< (n % 128)

/-- `u128 >> u32` (src/big_uint/uint128.rs:224); the release build masks the shift count. -/
def shr (x : U128) (n : Nat) : U128 := x >>> (n % 128)

/-- src/big_uint/uint128.rs:313-337 -/
def divRem (x y : U128) : Option (U128 × U128) :=
  if y = 0 then none else some (x / y, x % y)

/-- src/big_uint/mod.rs:220-226 at `Self = U128` -/
def wideningShr (x : U128) (shift : Nat) : U128 × U128 :=
  match shift with
  | 0 => (x, 0)
  | _ => (shr x shift, shl x (128 - shift))

/-- src/big_uint/uint128.rs:159-166 -/
def roundingDiv (x y : U128) : Option U128 := do
  let (quot, rem) ← divRem x y
  let tie := y >>> 1
  if rem > tie || (rem == tie && (quot &&& 1) == 1) then
    return quot + 1
  return quot

/-- src/big_uint/uint128.rs:168-175 -/
def roundingDivPow2 (x : U128) (n : Nat) : U128 :=
  let tie : U128 := (1 : U128) <<< 127
  let (quot, rem) := wideningShr x n
  if rem > tie || (rem == tie && (quot &&& 1) == 1) then quot + 1 else quot

/-- src/big_uint/uint128.rs:177-179 -/
def remPow2 (x : U128) (n : Nat) : U128 := shr (shl x n) n

/-- src/big_uint/uint128.rs:42-73 and 75-180, `impl HiLo / BigUInt for U128` -/
instance : BigUInt U128 where
  BITS := 128
  ZERO := 0
  ONE := 1
  TWO := 2
  MAX := 0xffffffffffffffffffffffffffffffff
  beq x y := decide (x = y)
  cmp x y := compare x.toNat y.toNat
  isEven x := (x &&& 1) == 0
  isOdd x := (x &&& 1) == 1
  leadingZeros := leadingZeros
  trailingZeros := trailingZeros
  incr x := x + 1
  decr x := x - 1
  overflowingAdd := overflowingAdd
  wrappingAdd x y := x + y
  overflowingSub := overflowingSub
  wrappingSub x y := x - y
  overflowingMul := overflowingMul
  wideningMul := wideningMul
  add := add
  sub := sub
  mul := mul
  and x y := x &&& y
  or x y := x ||| y
  shl := shl
  shr := shr
  divRem := divRem
  roundingDiv := roundingDiv
  roundingDivPow2 := roundingDivPow2
  remPow2 := remPow2
  ofU128 x := x
  hiHalf := hi64
  loHalf := lo64
  joinLo a b := (lo64 a <<< 64) ||| lo64 b
  toVec x := [x]
  ofVec l := l.headD 0

end U128

end Verif
