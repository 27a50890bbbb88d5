import Verif.Spec.Frames
import Mathlib.Analysis.SpecialFunctions.Trigonometric.Inverse

/-
Specification of local directions at a position vector, used for the entry state.
-/

noncomputable section

namespace AMAT.Spec

/-- Unit vector of the local vertical. -/
def radial (R : V3) : V3 := (1 / V3.norm R) • R

/-- Eastward unit vector at position `R` (polar axis `z`). -/
def eastAt (R : V3) : V3 :=
  (1 / V3.norm (V3.cross ⟨0, 0, 1⟩ R)) • V3.cross ⟨0, 0, 1⟩ R

/-- Horizontal part of a vector `U` at position `R`. -/
def horizontal (R U : V3) : V3 := U - V3.dot U (radial R) • radial R

/-- Angle between two non-zero vectors. -/
def angle (a b : V3) : ℝ := Real.arccos (V3.dot a b / (V3.norm a * V3.norm b))

end AMAT.Spec
