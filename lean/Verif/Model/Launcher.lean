import Verif.Model.Numpy

/-
Model of `/repo/AMAT/launcher.py` and of the part of `/repo/AMAT/interplanetary.py` that uses it.
-/

noncomputable section

namespace AMAT

/-- `Launcher.__init__` (launcher.py:20-37) with the default `kind='linear'`: the performance
table is a list of `(C3, mass)` rows; `fill_value=0, bounds_error=False`. -/
def launcherInit (rows : List (ℝ × ℝ)) : Py (ℝ → ℝ) := interp1d rows 0 0

/-- `Launcher.launchMass` (launcher.py:39-56). -/
def launchMass (rows : List (ℝ × ℝ)) (C3 : ℝ) : Py ℝ := do
  let f ← launcherInit rows
  .ok (f C3)

/-- `Interplanetary.compute_launch_capability` (interplanetary.py:62-74): the launch mass of every
trajectory in the list, element by element. -/
def computeLaunchCapability (rows : List (ℝ × ℝ)) (c3s : List ℝ) : Py (List ℝ) := do
  let f ← launcherInit rows
  .ok (c3s.map f)

end AMAT
