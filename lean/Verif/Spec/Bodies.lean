import Mathlib.Data.Real.Basic

/-
Independent reference data for the supported bodies: the names documented in the class docstring,
the sign of the rotation and the published surface gravity in m/s² (planetary fact sheets; not
computed from the source constants).
-/

namespace AMAT.Spec

/-- Names accepted by the tool according to its documentation. -/
def bodies : List String :=
  ["VENUS", "EARTH", "MARS", "JUPITER", "SATURN", "TITAN", "URANUS", "NEPTUNE"]

/-- Published surface gravity, m/s². -/
noncomputable def surfaceGravity (s : String) : ℝ :=
  if s = "VENUS" then 8.87 else if s = "EARTH" then 9.82 else if s = "MARS" then 3.73
  else if s = "JUPITER" then 25.92 else if s = "SATURN" then 11.19 else if s = "TITAN" then 1.352
  else if s = "URANUS" then 8.87 else 11.27

/-- Bodies with retrograde rotation. -/
def retrograde (s : String) : Prop := s = "VENUS" ∨ s = "URANUS"

end AMAT.Spec
