import Verif.Spec.Decimal
import Mathlib.Data.Real.Basic
import Mathlib.Algebra.Order.Field.Basic

/-!
# Decimal literals (specification)

Characters are ASCII codes: `'+'` 43, `'-'` 45, `'.'` 46, `'E'` 69, `'e'` 101.
-/

namespace Verif.Spec

/-- A string of digits (possibly empty) -/
def Digits (s : List ℕ) : Prop := ∀ c ∈ s, IsDigit c

/-- Nothing, `+` or `-` -/
def IsSign (s : List ℕ) : Prop := s = [] ∨ s = [43] ∨ s = [45]

/-- The parts of a decimal literal -/
structure DecLit where
  /-- sign -/
  sign : List ℕ
  /-- integer digits -/
  ip : List ℕ
  /-- is there a radix point? -/
  dot : Bool
  /-- fractional digits -/
  fp : List ℕ
  /-- exponent letter, sign and digits -/
  exp : Option (ℕ × List ℕ × List ℕ)

namespace DecLit

/-- The exponent part as string -/
def expText : Option (ℕ × List ℕ × List ℕ) → List ℕ
  | none => []
  | some (c, sg, ds) => c :: (sg ++ ds)

/-- The string -/
def text (L : DecLit) : List ℕ :=
  L.sign ++ (L.ip ++ (if L.dot then 46 :: L.fp else []) ++ expText L.exp)

/-- The parts are what they should be. -/
structure Wf (L : DecLit) : Prop where
  sign : IsSign L.sign
  ip : Digits L.ip
  fp : Digits L.fp
  dot : L.dot = false → L.fp = []
  exp : ∀ c sg ds, L.exp = some (c, sg, ds) → (c = 101 ∨ c = 69) ∧ IsSign sg ∧ Digits ds

/-- `[+-] (digits[.[digits]] | .digits) [(e|E)[+-]digits]`: there are digits in the mantissa and, if
there is an exponent, in the exponent. -/
structure Proper (L : DecLit) : Prop extends L.Wf where
  mant : L.ip ≠ [] ∨ L.fp ≠ []
  expDigits : ∀ c sg ds, L.exp = some (c, sg, ds) → ds ≠ []

/-- Literals with a mantissa `.` without any digit, and exponents with sign but without digit, are
allowed as well. -/
structure Lenient (L : DecLit) : Prop extends L.Wf where
  mant : L.ip ≠ [] ∨ L.dot = true
  expDigits : ∀ c sg ds, L.exp = some (c, sg, ds) → sg ≠ [] ∨ ds ≠ []

/-- The exponent written in the literal -/
def expo (L : DecLit) : ℤ :=
  match L.exp with
  | none => 0
  | some (_, sg, ds) => if sg = [45] then -(strVal ds : ℤ) else strVal ds

/-- Is the sign `-`? -/
def neg (L : DecLit) : Bool := decide (L.sign = [45])

/-- The number denoted, without sign -/
noncomputable def absVal (L : DecLit) : ℝ :=
  (strVal (L.ip ++ L.fp) : ℝ) * (10 : ℝ) ^ (L.expo - (L.fp.length : ℤ))

end DecLit

/-- Lower case of an ASCII code -/
def lower (c : ℕ) : ℕ := if 65 ≤ c ∧ c ≤ 90 then c + 32 else c

/-- A sign followed by `word` in upper or lower case or mixed -/
def SignedWord (s sg word : List ℕ) : Prop :=
  IsSign sg ∧ ∃ w, s = sg ++ w ∧ w.map lower = word

/-- `nan` -/
def wNan : List ℕ := [110, 97, 110]
/-- `inf` -/
def wInf : List ℕ := [105, 110, 102]
/-- `infinity` -/
def wInfinity : List ℕ := [105, 110, 102, 105, 110, 105, 116, 121]

end Verif.Spec
