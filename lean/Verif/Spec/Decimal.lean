import Mathlib.Data.Nat.Notation

/-!
# Decimal digits (specification)

Characters are given by their ASCII codes.
-/

namespace Verif.Spec

/-- The ASCII digits `'0'` … `'9'` -/
abbrev IsDigit (c : ℕ) : Prop := 48 ≤ c ∧ c ≤ 57

/-- The number denoted by a sequence of decimal digits (values 0 … 9), the most significant first -/
def decVal (ds : List ℕ) : ℕ := ds.foldl (fun a d => 10 * a + d) 0

/-- The number denoted by a string of ASCII digits -/
def strVal (s : List ℕ) : ℕ := decVal (s.map (· - 48))

end Verif.Spec
