import Verif.Model.Orbit

/-
Corridor-bound searches (`AMAT/vehicle.py`): bisection over the entry flight-path angle.

The searches mutate the vehicle, so they are functions returning the vehicle as it is when control comes back to the
caller, together with the returned value or the exception.  The `while` loop takes a number of allowed iterations
("fuel"); `none` means that the loop is still running when the fuel is used up.  The stored trajectory arrays, which the
searches overwrite but never read, are not part of the vehicle record.
-/

noncomputable section

open Classical

namespace AMAT

namespace Vehicle

/-- `self.gamma0_deg = x`. -/
def setGamma (V : Vehicle) (x : ℝ) : Vehicle := { V with init := { V.init with gamma0Deg := x } }

end Vehicle

/-- The verdict test run by a search: a function of the current vehicle. -/
abbrev Test := Vehicle → Py ℤ

/-- The `while` loop shared by all bisection searches (vehicle.py:3295-3317, 3398-3419, 3499-3522, 3602-3625,
3819-3845, 3919-3945: the same text with different variable names).  `limit` is the local variable
`overShootLimit`/`underShootLimit`/`EFPALimit`, `none` while it is unbound. -/
def bisectLoop (H : Test) (tol : ℝ) : ℕ → Vehicle → ℝ → ℝ → Option ℝ → Option (Vehicle × Py (Option ℝ))
  | 0, _, _, _, _ => none
  | n + 1, V, lo, hi, limit =>
      if |hi - lo| > tol then
        let mid := 0.5 * (lo + hi)
        match H (V.setGamma lo) with
        | .error e => some (V.setGamma lo, .error e)
        | .ok ans1 =>
          match H ((V.setGamma lo).setGamma mid) with
          | .error e => some ((V.setGamma lo).setGamma mid, .error e)
          | .ok ans2 =>
            let V3 := ((V.setGamma lo).setGamma mid).setGamma hi
            match H V3 with
            | .error e => some (V3, .error e)
            | .ok ans3 =>
              if ans1 * ans2 < 0 then bisectLoop H tol n V3 lo mid (some mid)
              else if ans2 * ans3 < 0 then bisectLoop H tol n V3 mid hi (some hi)
              else bisectLoop H tol n V3 lo hi (some hi)
      else some (V, .ok limit)

/-- The body of a search between saving and restoring the attributes (vehicle.py:3279-3324, 3382-3426, 3484-3529,
3587-3632, 3802-3852, 3902-3952).  `.ok none`: the result variables are still unbound at the end of the body. -/
def bisectBody (H : Test) (fuel : ℕ) (V : Vehicle) (lo hi tol : ℝ) : Option (Vehicle × Py (Option (ℝ × ℝ))) :=
  match H (V.setGamma lo) with
  | .error e => some (V.setGamma lo, .error e)
  | .ok ans1 =>
    let V2 := (V.setGamma lo).setGamma hi
    match H V2 with
    | .error e => some (V2, .error e)
    | .ok ans2 =>
      if ans1 * ans2 < 0 then
        match bisectLoop H tol fuel V2 lo hi none with
        | none => none
        | some (W, .error e) => some (W, .error e)
        | some (W, .ok none) => some (W, .ok none)
        | some (W, .ok (some x)) => some (W, .ok (some (x, 1.0)))
      else some (V2, .ok (some (0.0, 0.0)))

/-- A search: save the attributes, run the body, restore, return (vehicle.py:3275+3326-3328, 3378+3428-3430,
3480+3531-3533, 3583+3634-3636, 3795-3796+3854-3857, 3895-3896+3954-3957).  The restoration happens before the result
variables are read, so an unbound result raises after it; an exception inside a propagation skips it. -/
def saveRestore (restore : Vehicle → Vehicle) (r : Option (Vehicle × Py (Option (ℝ × ℝ)))) :
    Option (Vehicle × Py (ℝ × ℝ)) :=
  match r with
  | none => none
  | some (W, .error e) => some (W, .error e)
  | some (W, .ok none) => some (restore W, .error .unboundLocalError)
  | some (W, .ok (some x)) => some (restore W, .ok x)

/-- The searches that save and restore only `gamma0_deg`. -/
def bisectSearch (H : Test) (fuel : ℕ) (V : Vehicle) (lo hi tol : ℝ) : Option (Vehicle × Py (ℝ × ℝ)) :=
  saveRestore (fun W => W.setGamma V.init.gamma0Deg) (bisectBody H fuel V lo hi tol)

/-- The surroundings of a search: SciPy behaviour, integrator, simulation length, step and target. -/
structure SearchEnv where
  mode : ScipyMode
  I : Integrator
  tSec : ℝ
  dt : ℝ
  targetKm : ℝ

/-- The test `hitsTargetApoapsis(t_sec, dt, delta_deg, target)`. -/
def SearchEnv.test (S : SearchEnv) (deltaDeg : ℝ) : Test := fun V =>
  V.hitsTargetApoapsis S.mode S.I S.tSec S.dt deltaDeg S.targetKm

/-- The test `hitsTargetApoapsis2(t_sec, dt, delta_deg, target)`. -/
def SearchEnv.test2 (S : SearchEnv) (deltaDeg : ℝ) : Test := fun V =>
  V.hitsTargetApoapsis2 S.mode S.I S.tSec S.dt deltaDeg S.targetKm

namespace Vehicle

/-- `findOverShootLimit` (vehicle.py:3228-3328): full lift down. -/
def findOverShootLimit (S : SearchEnv) (fuel : ℕ) (V : Vehicle) (lo hi tol : ℝ) :=
  bisectSearch (S.test 180.0) fuel V lo hi tol

/-- `findOverShootLimit2` (vehicle.py:3330-3430). -/
def findOverShootLimit2 (S : SearchEnv) (fuel : ℕ) (V : Vehicle) (lo hi tol : ℝ) :=
  bisectSearch (S.test2 180.0) fuel V lo hi tol

/-- `findUnderShootLimit` (vehicle.py:3433-3533): full lift up. -/
def findUnderShootLimit (S : SearchEnv) (fuel : ℕ) (V : Vehicle) (lo hi tol : ℝ) :=
  bisectSearch (S.test 0.0) fuel V lo hi tol

/-- `findUnderShootLimit2` (vehicle.py:3535-3636). -/
def findUnderShootLimit2 (S : SearchEnv) (fuel : ℕ) (V : Vehicle) (lo hi tol : ℝ) :=
  bisectSearch (S.test2 0.0) fuel V lo hi tol

/-- `findEFPALimitD(2)` (vehicle.py:3795-3857, 3895-3957): additionally `self.LD` is set to zero during the search;
`CL` is not touched. -/
def efpaSearch (H : Test) (fuel : ℕ) (V : Vehicle) (lo hi tol : ℝ) : Option (Vehicle × Py (ℝ × ℝ)) :=
  saveRestore (fun W => { W.setGamma V.init.gamma0Deg with LD := V.LD })
    (bisectBody H fuel { V with LD := 0.0 } lo hi tol)

/-- `findEFPALimitD` (vehicle.py:3759-3857). -/
def findEFPALimitD (S : SearchEnv) (fuel : ℕ) (V : Vehicle) (lo hi tol : ℝ) :=
  efpaSearch (S.test 0.0) fuel V lo hi tol

/-- `findEFPALimitD2` (vehicle.py:3859-3957). -/
def findEFPALimitD2 (S : SearchEnv) (fuel : ℕ) (V : Vehicle) (lo hi tol : ℝ) :=
  efpaSearch (S.test2 0.0) fuel V lo hi tol

/-- `self.beta = x; self.CD = self.mass/(self.beta*self.A)` (vehicle.py:3994-3995, 4038-4039, 4081-4082,
4124-4125). -/
def setBeta (V : Vehicle) (x : ℝ) : Vehicle := { V with beta := x, CD := V.mass / (x * V.A) }

/-- `findUnderShootLimitD` (vehicle.py:3959-4001); `beta1` and `betaRatio` are the attributes set by
`setDragModulationVehicleParams` (vehicle.py:3744-3757). -/
def findUnderShootLimitD (S : SearchEnv) (fuel : ℕ) (V : Vehicle) (beta1 betaRatio lo hi tol : ℝ) :=
  findEFPALimitD S fuel (V.setBeta (beta1 * betaRatio)) lo hi tol

/-- `findOverShootLimitD` (vehicle.py:4047-4088). -/
def findOverShootLimitD (S : SearchEnv) (fuel : ℕ) (V : Vehicle) (beta1 lo hi tol : ℝ) :=
  findEFPALimitD S fuel (V.setBeta beta1) lo hi tol

/-- `findUnderShootLimitD2` (vehicle.py:4003-4045). -/
def findUnderShootLimitD2 (S : SearchEnv) (fuel : ℕ) (V : Vehicle) (beta1 betaRatio lo hi tol : ℝ) :=
  findEFPALimitD2 S fuel (V.setBeta (beta1 * betaRatio)) lo hi tol

/-- `findOverShootLimitD2` (vehicle.py:4090-4132). -/
def findOverShootLimitD2 (S : SearchEnv) (fuel : ℕ) (V : Vehicle) (beta1 lo hi tol : ℝ) :=
  findEFPALimitD2 S fuel (V.setBeta beta1) lo hi tol

/-- `x, flag = first(); y, flag = second(); return x - y` with the vehicle threaded through (the common shape of
vehicle.py:3674-3689, 3727-3742). -/
def widthOf (first second : Vehicle → Option (Vehicle × Py (ℝ × ℝ))) (V : Vehicle) (swap : Bool) :
    Option (Vehicle × Py ℝ) :=
  match first V with
  | none => none
  | some (W, .error e) => some (W, .error e)
  | some (W, .ok x) =>
    match second W with
    | none => none
    | some (W', .error e) => some (W', .error e)
    | some (W', .ok y) => some (W', .ok (if swap then y.1 - x.1 else x.1 - y.1))

/-- `computeTCW` (vehicle.py:3638-3689). -/
def computeTCW (S : SearchEnv) (fuel : ℕ) (V : Vehicle) (loOs hiOs loUs hiUs tolOs tolUs : ℝ) :=
  widthOf (fun V => findOverShootLimit S fuel V loOs hiOs tolOs)
    (fun V => findUnderShootLimit S fuel V loUs hiUs tolUs) V false

/-- `computeTCW2` (vehicle.py:3691-3742). -/
def computeTCW2 (S : SearchEnv) (fuel : ℕ) (V : Vehicle) (loOs hiOs loUs hiUs tolOs tolUs : ℝ) :=
  widthOf (fun V => findOverShootLimit2 S fuel V loOs hiOs tolOs)
    (fun V => findUnderShootLimit2 S fuel V loUs hiUs tolUs) V false

/-- `computeTCWD` (vehicle.py:4134-4173): undershoot first, then overshoot; overshoot minus undershoot. -/
def computeTCWD (S : SearchEnv) (fuel : ℕ) (V : Vehicle) (beta1 betaRatio lo hi tol : ℝ) :=
  widthOf (fun V => findUnderShootLimitD S fuel V beta1 betaRatio lo hi tol)
    (fun V => findOverShootLimitD S fuel V beta1 lo hi tol) V true

/-- `computeTCWD2` (vehicle.py:4175-4216). -/
def computeTCWD2 (S : SearchEnv) (fuel : ℕ) (V : Vehicle) (beta1 betaRatio lo hi tol : ℝ) :=
  widthOf (fun V => findUnderShootLimitD2 S fuel V beta1 betaRatio lo hi tol)
    (fun V => findOverShootLimitD2 S fuel V beta1 lo hi tol) V true

end Vehicle

end AMAT
