import Verif.Model.FloatGrid
import Verif.Model.Trajectory

/-
The conversions between the integrator's dimensionless state and the numbers given to and returned by the user, with
every operation rounded to floating-point numbers.  `Planet.toPlotUnits`, `Planet.dimensionalizeArr`, `Vehicle.entryState`
and `Planet.nonDimState` (`Verif/Model/Trajectory.lean`, `Verif/Model/Planet.lean`) take them to be real numbers.

Not modelled: overflow.
-/

noncomputable section

namespace AMAT

/-- `planet.dimensionalize` followed by `convertToPlotUnits` for one sample (planet.py:809-812, vehicle.py:1868-1874),
operation by operation; `p` is the double `np.pi`, `rnd 0.001` the double `1E-3`, `RP` and `Vref` the stored attributes.  The
result is what a caller hands to `setInitialState` to go on from there (vehicle.py:4916, 5146, 5348, 5538); the heat load is
passed through. -/
def reportR (rnd : ℝ → ℝ) (p RP Vref J : ℝ) (s : FState) : InitState :=
  { h0Km := rnd (rnd (rnd (s.r * RP) - RP) * rnd 0.001), theta0Deg := rnd (rnd (s.theta * 180) / p),
    phi0Deg := rnd (rnd (s.phi * 180) / p), v0Kms := rnd (rnd (s.v * Vref) * rnd 0.001),
    psi0Deg := rnd (rnd (s.psi * 180) / p), gamma0Deg := rnd (rnd (s.gamma * 180) / p),
    drange0Km := rnd (rnd (s.drange * RP) * rnd 0.001), heatLoad0 := J }

/-- The start of `propogateEntry`: SI units, `computeR`, `nonDimState` (vehicle.py:2459-2465, planet.py:700, 761-763),
operation by operation. -/
def restartR (rnd : ℝ → ℝ) (p RP Vref : ℝ) (i : InitState) : FState :=
  { r := rnd (rnd (RP + rnd (i.h0Km * 1000)) / RP), theta := rnd (rnd (i.theta0Deg * p) / 180),
    phi := rnd (rnd (i.phi0Deg * p) / 180), v := rnd (rnd (i.v0Kms * 1000) / Vref), psi := rnd (rnd (i.psi0Deg * p) / 180),
    gamma := rnd (rnd (i.gamma0Deg * p) / 180), drange := rnd (rnd (i.drange0Km * 1000) / RP) }

end AMAT
