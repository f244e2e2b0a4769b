import Verif.Model.Add
import Verif.Model.Mul
import Verif.Model.Fma

/-!
# Model of the crate's functions for sums and products with their remainders: src/lib.rs
-/

namespace Verif

namespace F256

/-- src/lib.rs:1440-1445 `fast_sum` -/
def fastSum (a b : F256) : Option (F256 × F256) := do
  let s ← add a b
  let d ← sub s a
  let r ← sub b d
  pure (s, r)

/-- src/lib.rs:1448-1454 `sum`. The fourth line subtracts `ta` from `s`, as in the code. -/
def sum (a b : F256) : Option (F256 × F256) := do
  let s ← add a b
  let d ← sub s b
  let ta ← sub a d
  let d2 ← sub s ta
  let tb ← sub b d2
  let r ← add ta tb
  pure (s, r)

/-- src/lib.rs:1458-1463 `fast_mul` -/
def fastMul (a b : F256) : Option (F256 × F256) := do
  let p := mul a b
  let r ← mulAdd a b p.negated
  pure (p, r)

end F256

end Verif
