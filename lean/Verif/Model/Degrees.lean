import Verif.Model.F256

/-!
# Model of the conversions between degrees and radians (src/lib.rs)
-/

namespace Verif

open BigUInt

namespace F256

/-- The common body of `to_degrees` and `to_radians`, src/lib.rs:643-650 and 667-674. `msb` is
`BITS - leading_zeros - 1` (src/big_uint/mod.rs), computed in `u32`: in a release build the subtraction wraps for a
zero significand, and the sum is taken modulo 2^32. -/
def scaleAngle (m : U256) (sh0 : Int) (x : F256) : F256 :=
  let signif := x.integralSignificand
  let exp := x.quantumExponent
  let t := UInt.wideningMul m signif
  let t : U512 := ⟨t.2, t.1⟩
  let sh := (256 + 4294967296 - leadingZeros signif - 1 + 256 - SIGNIFICAND_BITS) % 4294967296
  let t := UInt.roundingDivPow2 t sh
  encode x.sign (exp - sh0 + sh) t.lo

/-- The constant `M` of src/lib.rs:638-641 -/
def M_DEG : U256 :=
  U256.new 304636616676435425756912514760952666071 69798147688063442975655060594812004816

/-- The constant `M` of src/lib.rs:662-665 -/
def M_RAD : U256 :=
  U256.new 190049526055994088508387621895443694809 953738875812114979603059177117484306

/-- src/lib.rs:636-651 -/
def toDegrees (x : F256) : F256 := scaleAngle M_DEG 250 x

/-- src/lib.rs:660-675 -/
def toRadians (x : F256) : F256 := scaleAngle M_RAD 261 x

end F256

end Verif
