import Mathlib.Topology.Order.LeftRightNhds
import Verif.Model.Trajectory

/-
The terminal event of `solveTrajectory2` (`/repo/AMAT/vehicle.py:1746-1748`, used at line 1810).
-/

noncomputable section

open Classical

namespace AMAT

/-- `hit_EFPA_90` (vehicle.py:1746-1748).  Despite its name it vanishes at a flight-path angle of -88 degrees. -/
def hitEFPA90 (y : FState) : ℝ := y.gamma + 88 * Real.pi / 180

/-- What `scipy.integrate.solve_ivp` documents about a terminal event `g` without direction, for an exact solver: `y` is the
solution from `y0` on `[0, T]`.  Without a zero of `g` the solution is returned at all output times; if `g` becomes negative at
`ts`, at the output times up to `ts`.  (Nothing is said about solutions at which `g` vanishes without change of sign.) -/
structure StopsAtEvent (g : FState → ℝ) (I : Integrator) (f : ℝ → FState → FState) (y0 : FState) (grid : List ℝ)
    (y : ℝ → FState) (T : ℝ) : Prop where
  whole : (∀ t ∈ Set.Icc 0 T, 0 < g (y t)) → I f y0 grid = grid.map fun t => (t, y t)
  cut : ∀ ts ∈ Set.Icc 0 T, (∀ t ∈ Set.Ico 0 ts, 0 < g (y t)) → g (y ts) = 0 →
    (∀ᶠ t in nhdsWithin ts (Set.Ioi ts), g (y t) < 0) →
    I f y0 grid = (grid.filter fun t => t ≤ ts).map fun t => (t, y t)

end AMAT
