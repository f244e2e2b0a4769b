import Verif.Model.Trig
import Verif.Props.Basic

/-!
# C51: the circular functions at special values, and their symmetry
-/

namespace Verif.Props

open Verif Verif.Spec Verif.Trig

/-- The result of the call is a NaN. -/
def NaNResult (r : Option F256) : Prop := ∃ z, r = some z ∧ IsNaN z.pat

theorem absGtMax_iff (x : F256) : x.absGtMax = true ↔ INF ≤ x.pat % 2 ^ 255 := by
  have hl := x.bits.lo.isLt
  rw [F256.absGtMax, decide_eq_true_iff, BitVec.lt_def, toNat_and_abs, F256.pat,
    show MAX_HI.toNat = 2 ^ 127 - 2 ^ 108 - 1 by decide]
  unfold INF
  omega

theorem special_gt {x : F256} (h : IsNaN x.pat ∨ IsInf x.pat) : x.isSpecial = true ∧ x.absGtMax = true := by
  rw [isSpecial_iff, absGtMax_iff]
  unfold IsNaN IsInf expField fracField at h
  unfold INF
  omega

theorem special_zero {x : F256} (h : IsZero x.pat) : x.isSpecial = true ∧ x.absGtMax = false := by
  rw [isSpecial_iff, ← Bool.not_eq_true, absGtMax_iff]
  unfold IsZero expField fracField at h
  unfold INF
  omega

theorem nan_isNaN : IsNaN F256.NAN.pat := by decide

/-- C51: the circular functions of NaN and of the infinities are NaN. -/
theorem C51_nan (x : F256) (h : IsNaN x.pat ∨ IsInf x.pat) :
    NaNResult x.sin ∧ NaNResult x.cos ∧ NaNResult x.tan ∧
      ∃ s c, x.sinCos = some (s, c) ∧ IsNaN s.pat ∧ IsNaN c.pat := by
  obtain ⟨h1, h2⟩ := special_gt h
  refine ⟨⟨F256.NAN, ?_, nan_isNaN⟩, ⟨F256.NAN, ?_, nan_isNaN⟩, ⟨F256.NAN, ?_, nan_isNaN⟩,
    F256.NAN, F256.NAN, ?_, nan_isNaN, nan_isNaN⟩
  · rw [F256.sin, if_pos h1, if_pos h2]
  · rw [F256.cos, if_pos h1, if_pos h2]
  · rw [F256.tan, if_pos h1, if_pos h2]
  · rw [F256.sinCos, if_pos h1, if_pos h2]

example : IsNaN F256.NAN.pat ∧ IsInf F256.INFINITY.pat ∧ IsInf F256.NEG_INFINITY.pat := by decide

/-- C51: at the zeros, of either sign, the sine and the tangent are `+0` and the cosine is `1`. -/
theorem C51_zero (x : F256) (h : IsZero x.pat) :
    x.sin = some F256.ZERO ∧ x.tan = some F256.ZERO ∧ x.cos = some F256.ONE ∧
      x.sinCos = some (F256.ZERO, F256.ONE) := by
  obtain ⟨h1, h2⟩ := special_zero h
  have h2' : ¬ x.absGtMax = true := by rw [h2]; decide
  refine ⟨?_, ?_, ?_, ?_⟩
  · rw [F256.sin, if_pos h1, if_neg h2']
  · rw [F256.tan, if_pos h1, if_neg h2']
  · rw [F256.cos, if_pos h1, if_neg h2']
  · rw [F256.sinCos, if_pos h1, if_neg h2']

example : IsZero F256.ZERO.pat ∧ IsZero F256.NEG_ZERO.pat := by decide

theorem not_special {x : F256} (hf : IsFin x.pat) (h0 : ¬ IsZero x.pat) : ¬ x.isSpecial = true := by
  rw [isSpecial_iff]
  rw [fin_iff] at hf
  unfold IsZero expField fracField at h0
  unfold INF at *
  omega

theorem not_special_negated {x : F256} (hf : IsFin x.pat) (h0 : ¬ IsZero x.pat) :
    ¬ x.negated.isSpecial = true := by
  have hx := pat_lt x
  rw [isSpecial_iff, pat_negated]
  rw [fin_iff] at hf
  unfold IsZero expField fracField at h0
  unfold INF at *
  omega

theorem abs_negated (x : F256) : x.negated.abs = x.abs := by
  have hx := pat_lt x
  apply pat_inj
  rw [pat_abs, pat_abs, pat_negated]
  omega

theorem sign_cases (x : F256) : (x.sign = 0 ∧ x.negated.sign = 1) ∨ (x.sign = 1 ∧ x.negated.sign = 0) := by
  have hx := pat_lt x
  rw [sign_eq, sign_eq, pat_negated]
  omega

theorem neg_neg_f (x : F256) : x.negated.negated = x := C18_neg_neg x

/-- C51: for finite nonzero `x` the sine of `-x` is the negated sine of `x`, bit for bit. -/
theorem C51_sin_odd (x : F256) (hf : IsFin x.pat) (h0 : ¬ IsZero x.pat) :
    x.negated.sin = x.sin.map F256.negated := by
  rw [F256.sin, F256.sin, if_neg (not_special hf h0), if_neg (not_special_negated hf h0), abs_negated]
  cases hr : reduce x.abs with
  | none => rfl
  | some r =>
    obtain ⟨q, fx⟩ := r
    rcases sign_cases x with ⟨h1, h2⟩ | ⟨h1, h2⟩ <;> rw [h1, h2] <;>
      rcases q with _ | _ | _ | _ | q <;> simp [neg_neg_f]

/-- C51: for finite nonzero `x` the cosine of `-x` is the cosine of `x`, bit for bit. -/
theorem C51_cos_even (x : F256) (hf : IsFin x.pat) (h0 : ¬ IsZero x.pat) : x.negated.cos = x.cos := by
  rw [F256.cos, F256.cos, if_neg (not_special hf h0), if_neg (not_special_negated hf h0), abs_negated]

/-- C51: the same symmetries hold for the pair of both functions. -/
theorem C51_sin_cos (x : F256) (hf : IsFin x.pat) (h0 : ¬ IsZero x.pat) :
    x.negated.sinCos = x.sinCos.map fun p => (p.1.negated, p.2) := by
  rw [F256.sinCos, F256.sinCos, if_neg (not_special hf h0), if_neg (not_special_negated hf h0), abs_negated]
  cases hr : reduce x.abs with
  | none => rfl
  | some r =>
    obtain ⟨q, fx⟩ := r
    rcases sign_cases x with ⟨h1, h2⟩ | ⟨h1, h2⟩ <;> rw [h1, h2] <;>
      rcases q with _ | _ | _ | _ | q <;> simp [neg_neg_f]

/-- A number to which the theorems apply, and the values of both functions there. -/
example : IsFin F256.ONE.pat ∧ ¬ IsZero F256.ONE.pat ∧
    F256.ONE.sin = some ⟨⟨0x3fffeaed548f090cee0418dd3d2138a1#128, 0xe786513ca22265ea3169bdf6d94bfad9#128⟩⟩ ∧
    F256.ONE.cos = some ⟨⟨0x3fffe14a280fb5068b923848cdb2ed0e#128, 0x37a53446e75129f2d876fe46004816ec#128⟩⟩ := by
  decide +kernel

end Verif.Props
