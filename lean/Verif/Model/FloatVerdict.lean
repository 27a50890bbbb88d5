import Verif.Model.FloatSearch
import Verif.Model.Orbit

/-
The verdicts on a flight once more, with every operation rounded to floating-point numbers.  `Verif/Model/Trajectory.lean`
and `Verif/Model/Orbit.lean` take them to be real numbers.

Not modelled: overflow.  The arrays `r` and `v` are those the solver returned (vehicle.py:2482), whatever their accuracy.
-/

noncomputable section

namespace AMAT

/-- `Planet.computeH` (planet.py:703-719): `r - RP`. -/
def Planet.computeHR (rnd : ℝ → ℝ) (P : Planet) (r : ℝ) : ℝ := rnd (r - P.RP)

/-- `Planet.rho` (planet.py:429-453): the altitude is a rounded difference, its comparisons with the limits of the table are
exact. -/
def Planet.rhoR (rnd : ℝ → ℝ) (P : Planet) (atm : Atmosphere) (r _theta _phi : ℝ) : ℝ :=
  P.density atm (rnd (r - P.RP))

/-- `classifyTrajectory` (vehicle.py:1914-1997); comparisons, `max` and `min` are exact. -/
def Planet.classifyTrajectoryR (rnd : ℝ → ℝ) (P : Planet) (r : List ℝ) : Py (ℕ × ℤ) := do
  let h := r.map (P.computeHR rnd)
  let hMax ← pyMax h
  let hMin ← pyMin h
  if hMin ≥ 0 ∧ hMax > P.hSkip then
    return (argmaxBool (h.map fun x => decide (x > P.hSkip)), 1)
  else if hMin ≥ P.hTrap ∧ hMax < P.hSkip then
    return (h.length, 0)
  else if hMin ≤ P.hTrap then
    return (argmaxBool (h.map fun x => decide (x < P.hTrap)), -1)
  else
    return (h.length, 0)

/-- One entry of `computeEnergy` (vehicle.py:2333-2334): `-1.0*GM/rc + 0.5*vc**2.0`, from left to right.  NumPy squares an
array for `**2.0`, which is a rounded product. -/
def Planet.energyR (rnd : ℝ → ℝ) (P : Planet) (r v : ℝ) : ℝ :=
  rnd (rnd (rnd (-1.0 * P.GM) / r) + rnd (0.5 * rnd (v ^ 2)))

/-- The end of `isCaptured` (vehicle.py:3030-3041) on the arrays of a solution: they are truncated at the index of
`classifyTrajectory` (vehicle.py:2054), the energy is computed and its last entry compared with zero. -/
def Planet.capturedR (rnd : ℝ → ℝ) (P : Planet) (r v : List ℝ) : Py ℤ := do
  let (index, _) ← P.classifyTrajectoryR rnd r
  let energy := List.zipWith (P.energyR rnd) (r.take index) (v.take index)
  let e ← pyIndex energy (index - 1)
  return if e < 0 then -1 else 1

end AMAT
