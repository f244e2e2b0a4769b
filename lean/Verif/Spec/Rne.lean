/-!
# Specification: rounding a quotient of natural numbers to nearest, ties to even
-/

namespace Verif.Spec

/-- `rne a b` is the natural number nearest to `a / b`; if `a / b` lies halfway between two
naturals, it is the even one. (`b > 0`.) -/
def rne (a b : Nat) : Nat :=
  if b < 2 * (a % b) ∨ (2 * (a % b) = b ∧ (a / b) % 2 = 1) then a / b + 1 else a / b

/-- `q` is a natural number nearest to `n / d` (that is, `|n - q d| ≤ d / 2`), and it is even if
there are two of them. -/
structure NearestEven (n d q : Nat) : Prop where
  lower : 2 * (q * d) ≤ 2 * n + d
  upper : 2 * n ≤ 2 * (q * d) + d
  tie : 2 * n = 2 * (q * d) + d ∨ 2 * n + d = 2 * (q * d) → q % 2 = 0

end Verif.Spec
