import Verif.Model.Guidance

/-
Python objects with identity: a store holding the planet and vehicle objects of a program, for the parts of
`/repo/AMAT/vehicle.py` whose behaviour depends on which object an attribute is written to: `D`, `Dvectorized` and `Dbar`
(859-985), `dummyVehicle` (2604-2626), `propogateEntry_util` (2628-2786), `propogateEntry_util2` (2788-2943),
`predictApoapsisAltitudeKm_withLiftUp` (4576-4621) and its copies (4623-4670, 6403-6459, 6461-6519),
`propogateEntry_utilD` (6521-6693), `propogateEntry_utilD2` (6695-6865).

The numbers computed are those of the record model (`Verif.Model.Trajectory`, `Verif.Model.Guidance`); this file adds the
objects.  Interpolation functions are values: a deep copy of one has the same values.
-/

noncomputable section

namespace AMAT

/-- A planet object: the constants set by `Planet.__init__`, the four interpolation functions, and all other
attributes. -/
structure PlanetObj where
  consts : Planet
  atm : Atmosphere
  other : String → Option ℝ

/-- A vehicle object.  `planetObj` is a reference to a planet object; `CD1` and `CD_vec` are the attributes written by
`D`, `Dbar` and `Dvectorized` (`none`: not assigned yet); `beta1`, `betaRatio` are those of drag-modulation vehicles
(vehicle.py:5961-5979); `other` stands for all remaining attributes. -/
structure VehicleObj where
  mass : ℝ
  beta : ℝ
  LD : ℝ
  A : ℝ
  alpha : ℝ
  RN : ℝ
  planetObj : ℕ
  userDefinedCDMach : Bool
  CDMach : ℝ → ℝ
  Abar : ℝ
  mbar : ℝ
  CD : ℝ
  CL : ℝ
  init : InitState
  initRef : InitState
  CD1 : Option ℝ
  CDvec : Option (List ℝ)
  beta1 : Option ℝ
  betaRatio : Option ℝ
  other : String → Option ℝ

/-- The objects of a program; a reference is a position in the list of its class. -/
structure Heap where
  planets : List PlanetObj
  vehicles : List VehicleObj

/-- A computation on objects that may raise; what it has written before raising stays written. -/
def Obj (α : Type) := Heap → Py α × Heap

namespace Obj

/-- Sequencing: an exception skips the rest. -/
instance : Monad Obj where
  pure x := fun h => (.ok x, h)
  bind p q := fun h =>
    match p h with
    | (.ok x, h') => q x h'
    | (.error e, h') => (.error e, h')

/-- A computation that touches no object. -/
def ofPy {α : Type} (r : Py α) : Obj α := fun h => (r, h)

/-- Reading a vehicle.  (References never dangle in python; the error case is unreachable.) -/
def vehicle (l : ℕ) : Obj VehicleObj := fun h => (getAttr h.vehicles[l]?, h)

/-- Reading a planet. -/
def planet (l : ℕ) : Obj PlanetObj := fun h => (getAttr h.planets[l]?, h)

/-- Creating a planet object. -/
def newPlanet (p : PlanetObj) : Obj ℕ := fun h => (.ok h.planets.length, { h with planets := h.planets ++ [p] })

/-- Creating a vehicle object. -/
def newVehicle (v : VehicleObj) : Obj ℕ := fun h => (.ok h.vehicles.length, { h with vehicles := h.vehicles ++ [v] })

/-- Assigning attributes of a planet. -/
def setPlanet (l : ℕ) (f : PlanetObj → PlanetObj) : Obj Unit := fun h =>
  (.ok (), { h with planets := h.planets.modify l f })

/-- Assigning attributes of a vehicle. -/
def setVehicle (l : ℕ) (f : VehicleObj → VehicleObj) : Obj Unit := fun h =>
  (.ok (), { h with vehicles := h.vehicles.modify l f })

/-- The vehicle as a record, reading the planet through the reference. -/
def VehicleObj.record (v : VehicleObj) (p : PlanetObj) : Vehicle :=
  { mass := v.mass, beta := v.beta, LD := v.LD, A := v.A, alpha := v.alpha, RN := v.RN, planet := p.consts, atm := p.atm,
    userDefinedCDMach := v.userDefinedCDMach, CDMach := v.CDMach, Abar := v.Abar, mbar := v.mbar, CD := v.CD, CL := v.CL,
    init := v.init, initRef := v.initRef }

/-- What the methods of vehicle `l` see. -/
def record (l : ℕ) : Obj Vehicle := do
  let v ← vehicle l
  let p ← planet v.planetObj
  return VehicleObj.record v p

/-- `copy.deepcopy(self.planetObj)` (vehicle.py:2619, 2694). -/
def deepcopyPlanet (l : ℕ) : Obj ℕ := do
  let p ← planet l
  newPlanet p

/-- `copy.deepcopy(self)` (vehicle.py:2622, 2697) of a vehicle: its planet is copied with it. -/
def deepcopyVehicle (l : ℕ) : Obj ℕ := do
  let v ← vehicle l
  let p ← deepcopyPlanet v.planetObj
  newVehicle { v with planetObj := p }

/-- `Dbar` (vehicle.py:956-985), called at every evaluation of the equations of motion: it assigns `self.CD1`. -/
def Dbar (l : ℕ) (rbar theta phi vbar : ℝ) : Obj ℝ := do
  let V ← record l
  setVehicle l fun v => { v with CD1 := some (V.CD1 (rbar * V.planet.RP) (vbar * V.planet.Vref)) }
  return V.Dbar rbar theta phi vbar

/-- `Dvectorized` (vehicle.py:891-927), called when accelerations are computed: it assigns `self.CD_vec`. -/
def Dvectorized (l : ℕ) (r v : List ℝ) : Obj (List ℝ) := do
  let V ← record l
  setVehicle l fun o => { o with CDvec := some (List.zipWith (fun r v =>
    if V.userDefinedCDMach then V.CDMach (v / V.planet.sonicVec V.atm r) else V.CD) r v) }
  return List.zipWith V.Dvec r v

/-- The calls of `Dbar` and `Dvectorized` made while a trajectory is computed.  Which points an integrator evaluates is
not modelled: theorems hold for all lists. -/
structure Calls where
  dbar : List (ℝ × ℝ × ℝ × ℝ)
  dvec : List (List ℝ × List ℝ)

/-- All the calls of `Dbar`. -/
def runDbar (l : ℕ) : List (ℝ × ℝ × ℝ × ℝ) → Obj Unit
  | [] => pure ()
  | (r, th, ph, v) :: c => do
    let _ ← Dbar l r th ph v
    runDbar l c

/-- All the calls of `Dvectorized`. -/
def runDvec (l : ℕ) : List (List ℝ × List ℝ) → Obj Unit
  | [] => pure ()
  | (r, v) :: c => do
    let _ ← Dvectorized l r v
    runDvec l c

/-- Integration and post-processing on vehicle `l` (vehicle.py:2704-2782): the values are those of `run` on the record,
and the calls leave their marks. -/
def fly (l : ℕ) (c : Calls) (run : Vehicle → Py PropOut) : Obj PropOut := do
  runDbar l c.dbar
  runDvec l c.dvec
  let V ← record l
  ofPy (run V)

/-- `dummyVehicle` (vehicle.py:2604-2626) and the first lines of the `propogateEntry_util` functions (2694-2699): a copy
of the planet gets the measured density, a copy of the vehicle is attached to it. -/
def dummyVehicle (self : ℕ) (densityMes : ℝ → ℝ) : Obj ℕ := do
  let v ← vehicle self
  let planetCopy ← deepcopyPlanet v.planetObj
  setPlanet planetCopy fun p => { p with atm := { p.atm with densityInt := densityMes } }
  let vehicleCopy ← deepcopyVehicle self
  setVehicle vehicleCopy fun v => { v with planetObj := planetCopy }
  return vehicleCopy

/-- `propogateEntry_util` (vehicle.py:2628-2786). -/
def propogateEntryUtil (self : ℕ) (c : Calls) (mode : ScipyMode) (I : Integrator) (s : InitState) (tSec dt deltaDeg : ℝ)
    (densityMes : ℝ → ℝ) : Obj PropOut := do
  let w ← dummyVehicle self densityMes
  let delta := deltaDeg * Real.pi / 180.0
  fly w c fun W => W.postProcess mode
    (W.solveTrajectory I (W.planet.nonDimState (Vehicle.entryState W.planet s)) tSec dt delta) delta s.heatLoad0

/-- `propogateEntry_util2` (vehicle.py:2788-2943). -/
def propogateEntryUtil2 (self : ℕ) (c : Calls) (mode : ScipyMode) (I : Integrator) (s : InitState) (tSec dt deltaDeg : ℝ)
    (densityMes : ℝ → ℝ) : Obj PropOut := do
  let w ← dummyVehicle self densityMes
  let delta := deltaDeg * Real.pi / 180.0
  fly w c fun W => W.postProcess mode
    (W.solveTrajectory2 I (W.planet.nonDimState (Vehicle.entryState W.planet s)) tSec dt delta) delta s.heatLoad0

/-- vehicle.py:6610-6614, 6783-6787: the copy gets the ballistic and drag coefficients after jettison.  `beta1` and
`betaRatio` are `None` until set (vehicle.py:427-428); dividing by zero raises. -/
def jettisonCopy (self w : ℕ) : Obj Unit := do
  let v ← vehicle self
  let b1 ← ofPy (needNumber v.beta1)
  let ratio ← ofPy (needNumber v.betaRatio)
  setVehicle w fun o => { o with beta := b1 * ratio }
  if b1 * ratio * v.A = 0 then ofPy (.error .zeroDivisionError)
  else setVehicle w fun o => { o with CD := v.mass / (b1 * ratio * v.A) }

/-- `propogateEntry_utilD` (vehicle.py:6521-6693). -/
def propogateEntryUtilD (self : ℕ) (c : Calls) (mode : ScipyMode) (I : Integrator) (s : InitState) (tSec dt deltaDeg : ℝ)
    (densityMes : ℝ → ℝ) : Obj PropOut := do
  let w ← dummyVehicle self densityMes
  jettisonCopy self w
  let delta := deltaDeg * Real.pi / 180.0
  fly w c fun W => W.postProcess mode
    (W.solveTrajectory I (W.planet.nonDimState (Vehicle.entryState W.planet s)) tSec dt delta) delta 0

/-- `propogateEntry_utilD2` (vehicle.py:6695-6865). -/
def propogateEntryUtilD2 (self : ℕ) (c : Calls) (mode : ScipyMode) (I : Integrator) (s : InitState) (tSec dt deltaDeg : ℝ)
    (densityMes : ℝ → ℝ) : Obj PropOut := do
  let w ← dummyVehicle self densityMes
  jettisonCopy self w
  let delta := deltaDeg * Real.pi / 180.0
  fly w c fun W => W.postProcess mode
    (W.solveTrajectory2 I (W.planet.nonDimState (Vehicle.entryState W.planet s)) tSec dt delta) delta s.heatLoad0

/-- The `predictApoapsisAltitudeKm_…` methods (vehicle.py:4576-4621, 4623-4670, 6403-6459, 6461-6519), given the
trajectory function they call; the conversion to an orbit reads `self.planetObj`. -/
def predictApoapsis (self : ℕ) (p : Obj PropOut) : Obj (Option ℝ) := do
  let out ← p
  let V ← record self
  ofPy (V.predictedApoapsis (.ok out))

/-- `self.planetObj.density_int = …` (vehicle.py:5784-5787, 5889-5892, 7498-7501, 7605-7608, 7720-7723): the planet a
vehicle refers to gets a new density function. -/
def assignDensity (self : ℕ) (f : ℝ → ℝ) : Obj Unit := do
  let v ← vehicle self
  setPlanet v.planetObj fun p => { p with atm := { p.atm with densityInt := f } }

end Obj

end AMAT
