import Mathlib.Algebra.Order.Floor.Semiring
import Mathlib.Analysis.Real.Sqrt
import Verif.Model.FloatSearch

/-
The output times of a flight once more, with every operation rounded to floating-point numbers.  `Vehicle.tGrid`
(`Verif/Model/Trajectory.lean`) takes them to be real numbers.

Not modelled: overflow.
-/

noncomputable section

namespace AMAT

/-- Reference time of a planet (planet.py:231-232): `Vref = np.sqrt(GM/RP)`, `tau = RP/Vref`.  Division and square root are
correctly rounded (IEEE 754). -/
def tauR (rnd : ℝ → ℝ) (RP GM : ℝ) : ℝ := rnd (RP / rnd (√(rnd (GM / RP))))

/-- `np.arange(0, stop, step)` for a positive step: numpy takes `ceil((stop - 0)/step)` points `0 + i*step`.  Sums and
differences with zero are exact, and so is `ceil` and the conversion of an index below 2^53. -/
def arangeR (rnd : ℝ → ℝ) (stop step : ℝ) : List ℝ :=
  (List.range ⌈rnd (stop / step)⌉₊).map (fun i : ℕ => rnd ((i : ℝ) * step))

/-- The grid handed to the integrators (vehicle.py:1729, 1806). -/
def tGridR (rnd : ℝ → ℝ) (tau tSec dt : ℝ) : List ℝ := arangeR rnd (rnd (rnd (tSec + dt) / tau)) (rnd (dt / tau))

/-- The same in seconds, as stored with the flight (planet.py:809). -/
def timesR (rnd : ℝ → ℝ) (tau tSec dt : ℝ) : List ℝ := (tGridR rnd tau tSec dt).map (fun t => rnd (tau * t))

end AMAT
