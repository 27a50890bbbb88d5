import Mathlib.Analysis.SpecialFunctions.Pow.Real
import Verif.Model.Vehicle
import Verif.Model.Numpy

/-
Model of the stagnation-point heating relations of `/repo/AMAT/vehicle.py` (lines 579-800) and of the
nose-radius sweep (lines 2270-2312).

Powers with a real exponent are `Real.rpow`.  For a negative base NumPy returns NaN where `Real.rpow` returns
some real number; every theorem about these functions assumes a non-negative density, speed and a positive
nose radius, where the two agree.
-/

noncomputable section

open Classical

namespace AMAT

/-- The element-wise formula of `qStagConvective` (vehicle.py:579-650) selected by the planet identifier, as a
function of nose radius, density and speed.  `none` is the implicit `return None` after the error message of
lines 649-650. -/
def qConvFn (id : String) : Option (ℝ → ℝ → ℝ → ℝ) :=
  if id = "VENUS" then some (fun RN rho v => 1.8960E-8 * (rho / RN) ^ (0.5:ℝ) * v ^ (3.0:ℝ))
  else if id = "EARTH" then some (fun RN rho v => 1.7623E-8 * (rho / RN) ^ (0.5:ℝ) * v ^ (3.0:ℝ))
  else if id = "MARS" then some (fun RN rho v => 1.8980E-8 * (rho / RN) ^ (0.5:ℝ) * v ^ (3.0:ℝ))
  else if id = "JUPITER" then some (fun RN rho v => 0.6556E-8 * (rho / RN) ^ (0.5:ℝ) * v ^ (3.0:ℝ))
  else if id = "SATURN" then some (fun RN rho v => 0.6356E-8 * (rho / RN) ^ (0.5:ℝ) * v ^ (3.0:ℝ))
  else if id = "TITAN" then some (fun RN rho v => 1.7407E-8 * (rho / RN) ^ (0.5:ℝ) * v ^ (3.0:ℝ))
  else if id = "URANUS" then
    some (fun RN rho v => 2.24008E-7 * rho ^ (0.452130:ℝ) * v ^ (2.691800:ℝ) * Real.sqrt (0.291 / RN))
  else if id = "NEPTUNE" then
    some (fun RN rho v => 2.24008E-7 * rho ^ (0.452130:ℝ) * v ^ (2.691800:ℝ) * Real.sqrt (0.291 / RN))
  else none

/-- The velocity table of vehicle.py:709-711. -/
def earthRadNodes : List (ℝ × ℝ) :=
  [(9000, 1.5), (10000, 35), (11000, 151), (12000, 359), (13000, 660), (14000, 1065), (15000, 1550),
   (16000, 2040)]

/-- vehicle.py:713 `fV`, the interpolant with fill values `(0, 2040)`; the nodes are listed in increasing order,
so no sorting takes place. -/
def earthFV (v : ℝ) : ℝ := interpSorted earthRadNodes 0 2040 v

/-- The element-wise formula of `qStagRadiative` (vehicle.py:653-775). -/
def qRadFn (id : String) : Option (ℝ → ℝ → ℝ → ℝ) :=
  if id = "VENUS" then some (fun RN rho v =>
    if v < 8000 then 3.33E-34 * v ^ (10.0:ℝ) * rho ^ (1.2:ℝ) * RN ^ (0.49:ℝ)
    else if 8000 ≤ v ∧ v < 10000 then 1.22E-16 * v ^ (5.5:ℝ) * rho ^ (1.2:ℝ) * RN ^ (0.49:ℝ)
    else 3.07E-48 * v ^ (13.4:ℝ) * rho ^ (1.2:ℝ) * RN ^ (0.49:ℝ))
  else if id = "EARTH" then some (fun RN rho v =>
    4.736E4 * RN ^ (0.6:ℝ) * rho ^ (1.22:ℝ) * earthFV v)
  else if id = "MARS" then some (fun _ _ _ => 0)
  else if id = "JUPITER" then some (fun RN rho v =>
    (9.7632379E-40 * (2 * RN) ^ (-0.17905:ℝ) * rho ^ (1.763827469:ℝ) * v ^ (10.993852:ℝ)) * 1E3 / 1E4)
  else if id = "SATURN" then some (fun RN rho v =>
    (9.7632379E-40 * (2 * RN) ^ (-0.17905:ℝ) * rho ^ (1.763827469:ℝ) * v ^ (10.993852:ℝ)) * 1E3 / 1E4)
  else if id = "TITAN" then some (fun _ _ _ => 0)
  else if id = "URANUS" then some (fun RN rho v =>
    8.125812E-3 * rho ^ (0.498140:ℝ) * (v / 10000) ^ (15.113:ℝ) * (RN / 0.291))
  else if id = "NEPTUNE" then some (fun RN rho v =>
    8.125812E-3 * rho ^ (0.498140:ℝ) * (v / 10000) ^ (15.113:ℝ) * (RN / 0.291))
  else none

namespace Vehicle

/-- `qStagConvective` (vehicle.py:579-650) on arrays.  Simplification: arrays of different lengths, on which
NumPy raises, are truncated to the shorter one; all callers pass arrays of equal length. -/
def qStagConvective (V : Vehicle) (r v : List ℝ) : Option (List ℝ) :=
  (qConvFn V.planet.ID).map fun f => List.zipWith (fun r v => f V.RN (V.planet.rhoVec V.atm r) v) r v

/-- `qStagRadiative` (vehicle.py:653-775) on arrays. -/
def qStagRadiative (V : Vehicle) (r v : List ℝ) : Option (List ℝ) :=
  (qRadFn V.planet.ID).map fun f => List.zipWith (fun r v => f V.RN (V.planet.rhoVec V.atm r) v) r v

/-- `qStagTotal` (vehicle.py:777-800); adding `None` raises `TypeError`. -/
def qStagTotal (V : Vehicle) (r v : List ℝ) : Py (List ℝ) := do
  let c ← needNumber (V.qStagConvective r v)
  let q ← needNumber (V.qStagRadiative r v)
  return List.zipWith (· + ·) c q

/-- One pass of the loop body of `computeHeatingForMultipleRN` (vehicle.py:2302-2308) for the vehicle whose nose
radius has just been set: peak rate and last entry of the heat-load history. -/
def rnPass (V : Vehicle) (mode : ScipyMode) (tc rc vc : List ℝ) : Py (ℝ × ℝ) := do
  let q ← V.qStagTotal rc vc
  let m ← pyMax q
  let load ← cumTrapz mode (List.zip tc q) 0
  match load.getLast? with
  | some x => return (m, x)
  | none => .error .indexError

/-- The loop of `computeHeatingForMultipleRN` (vehicle.py:2302-2308): `self.RN` is overwritten in every pass; the
vehicle is returned also when a pass raises. -/
def rnLoop (mode : ScipyMode) (tc rc vc : List ℝ) :
    Vehicle → List ℝ → List (ℝ × ℝ) → Vehicle × Py (List (ℝ × ℝ))
  | V, [], acc => (V, .ok acc)
  | V, RN :: rest, acc =>
      match ({ V with RN := RN } : Vehicle).rnPass mode tc rc vc with
      | .error e => ({ V with RN := RN }, .error e)
      | .ok x => rnLoop mode tc rc vc { V with RN := RN } rest (acc ++ [x])

/-- `computeHeatingForMultipleRN` (vehicle.py:2270-2312): remember the radius, loop, restore the radius.  The
second component is the list of pairs (peak rate, load), one per requested radius. -/
def computeHeatingForMultipleRN (V : Vehicle) (mode : ScipyMode) (tc rc vc rnArray : List ℝ) :
    Vehicle × Py (List (ℝ × ℝ)) :=
  let tempVar := V.RN
  match rnLoop mode tc rc vc V rnArray [] with
  | (V', .error e) => (V', .error e)
  | (V', .ok res) => ({ V' with RN := tempVar }, .ok res)

end Vehicle

end AMAT
