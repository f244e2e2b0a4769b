import Verif.Model.F256

/-!
# Model of the integer logarithm estimates used for formatting

`floor_log10f` (src/conv/to_str/common.rs:24-26) computes in `f64` and is not modelled.
-/

namespace Verif

/-- src/conv/to_str/common.rs:17-19 -/
def floorLog10Pow2 (i : BitVec 32) : BitVec 32 :=
  ((i.signExtend 128 * 169464822037455#128).sshiftRight 49).setWidth 32

/-- src/conv/to_str/dec_repr.rs:27-31 -/
def floorLog10Pow5 (i : BitVec 32) : BitVec 32 :=
  ((i.signExtend 128 * 24592820711491#128) >>> 45).setWidth 32

/-- src/conv/to_str/dec_repr.rs:36-40; the product wraps at 64 bits -/
def floorLog2Pow5 (i : BitVec 32) : BitVec 32 :=
  ((i.signExtend 64 * 81695582054029#64) >>> 45).setWidth 32

/-- src/conv/to_str/dec_repr.rs:44-46 -/
def ceilLog2Pow5 (i : BitVec 32) : BitVec 32 := floorLog2Pow5 i + 1#32

/-- src/conv/to_str/common.rs:33-50 -/
def lessThan5 (val : BitVec 32) : BitVec 32 :=
  (((val + 393206#32) &&& (val + 524188#32)) ^^^ ((val + 916504#32) &&& (val + 514288#32))) >>> 17

/-- src/conv/to_str/common.rs:56-67 -/
def floorLog10 (n : BitVec 64) : BitVec 32 :=
  let s := if 10000000000#64 ≤ n then (n / 10000000000#64, 10#32) else (n, 0#32)
  let s := if 100000#64 ≤ s.1 then (s.1 / 100000#64, s.2 + 5#32) else s
  s.2 + lessThan5 (s.1.setWidth 32)

end Verif
