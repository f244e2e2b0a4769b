import Verif.Spec.Float

/-!
# Positions of real numbers relative to the binary256 numbers (specification)
-/

namespace Verif.Spec

/-- `v` is at `h` or above it by a relative distance of less than `2^-252`. -/
def JustAbove (v h : ℝ) : Prop := h ≤ v ∧ v < h * (1 + 1 / 2 ^ 252)

/-- `v` is not at or just above the middle between two neighbouring non-negative numbers (or between the
largest one and infinity). -/
def MidClear (v : ℝ) : Prop :=
  (∀ N, N + 1 < 2 ^ 255 → IsFin N → IsFin (N + 1) → ¬ JustAbove v ((val N + val (N + 1)) / 2)) ∧
  ¬ JustAbove v overflowThreshold

/-- `v` is not at or just above a non-negative number. -/
def NumClear (v : ℝ) : Prop := ∀ N, N < 2 ^ 255 → IsFin N → ¬ JustAbove v (val N)

end Verif.Spec
