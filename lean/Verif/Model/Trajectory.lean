import Mathlib.Algebra.Order.Floor.Semiring
import Verif.Model.Heating

/-
Model of trajectory propagation in `/repo/AMAT/vehicle.py`: lines 1673-2602 (`solveTrajectory`, unit
conversion, classification, truncation, load histories, `propogateEntry`, `propogateEntry2`) and 2628-2943
(`propogateEntry_util`).

The ODE integrators of SciPy are *not* modelled: an integrator is an arbitrary function (`Integrator`) from a
right-hand side, an initial state and a time grid to a list of samples.  What SciPy documents about its output is
stated as the separate predicates `OdeintLike` and `SolveIvpLike`, used as hypotheses where needed.
-/

noncomputable section

open Classical

namespace AMAT

/-- An ODE integrator: right-hand side `(t, y) ↦ y'`, initial state, output grid ↦ samples. -/
abbrev Integrator := (ℝ → FState → FState) → FState → List ℝ → List (ℝ × FState)

/-- `scipy.integrate.odeint` (used at vehicle.py:1733): one sample per grid point, the first one being the initial
state. -/
def OdeintLike (I : Integrator) : Prop :=
  ∀ f y0 grid, (I f y0 grid).map Prod.fst = grid ∧
    ∀ p, (I f y0 grid).head? = some p → p.2 = y0

/-- `scipy.integrate.solve_ivp` with `t_eval` and a terminal event (vehicle.py:1810): the samples are those of a
prefix of the grid, non-empty when the grid is, the first one being the initial state. -/
def SolveIvpLike (I : Integrator) : Prop :=
  ∀ f y0 grid, (I f y0 grid).map Prod.fst <+: grid ∧ (grid ≠ [] → I f y0 grid ≠ []) ∧
    ∀ p, (I f y0 grid).head? = some p → p.2 = y0

/-- `np.arange(0, stop, step)` for a positive step: `⌈stop/step⌉` points. -/
def arange0 (stop step : ℝ) : List ℝ :=
  (List.range ⌈stop / step⌉₊).map (fun i : ℕ => (i : ℝ) * step)

/-- Eight parallel arrays `(t, r, θ, φ, v, ψ, γ, drange)` in SI units, or `(t_min, h_km, θ_deg, …)` in plot
units. -/
@[ext] structure TrajArrays where
  t : List ℝ
  r : List ℝ
  theta : List ℝ
  phi : List ℝ
  v : List ℝ
  psi : List ℝ
  gamma : List ℝ
  drange : List ℝ

/-- `truncateTrajectory` (vehicle.py:1999-2054): every array is sliced `[0:index]`. -/
def TrajArrays.truncate (a : TrajArrays) (index : ℕ) : TrajArrays :=
  { t := a.t.take index, r := a.r.take index, theta := a.theta.take index, phi := a.phi.take index,
    v := a.v.take index, psi := a.psi.take index, gamma := a.gamma.take index,
    drange := a.drange.take index }

/-- The columns of the solver output, vehicle.py:1736-1744 / 1812-1822. -/
def TrajArrays.ofSamples (l : List (ℝ × FState)) : TrajArrays :=
  { t := l.map Prod.fst, r := l.map (fun p => p.2.r), theta := l.map (fun p => p.2.theta),
    phi := l.map (fun p => p.2.phi), v := l.map (fun p => p.2.v), psi := l.map (fun p => p.2.psi),
    gamma := l.map (fun p => p.2.gamma), drange := l.map (fun p => p.2.drange) }

/-- `Planet.dimensionalize` (planet.py:767-814) on arrays. -/
def Planet.dimensionalizeArr (P : Planet) (a : TrajArrays) : TrajArrays :=
  { a with t := a.t.map (P.tau * ·), r := a.r.map (· * P.RP), v := a.v.map (· * P.Vref),
           drange := a.drange.map (· * P.RP) }

/-- `convertToPlotUnits` (vehicle.py:1824-1876).  The field `r` of the result holds `h_km`. -/
def Planet.toPlotUnits (P : Planet) (a : TrajArrays) : TrajArrays :=
  { t := a.t.map (· / 60.0), r := a.r.map (fun r => (r - P.RP) * 1E-3),
    theta := a.theta.map (fun x => x * 180 / Real.pi), phi := a.phi.map (fun x => x * 180 / Real.pi),
    v := a.v.map (· * 1E-3), psi := a.psi.map (fun x => x * 180 / Real.pi),
    gamma := a.gamma.map (fun x => x * 180 / Real.pi), drange := a.drange.map (· * 1.0E-3) }

/-- `classifyTrajectory` (vehicle.py:1914-1997): index of the first dropped point and exit flag (the floats
`1.0, 0.0, -1.0` are modelled as integers).  `max`/`min` of an empty array raise `ValueError`. -/
def Planet.classifyTrajectory (P : Planet) (r : List ℝ) : Py (ℕ × ℤ) := do
  let h := r.map P.computeH
  let hMax ← pyMax h
  let hMin ← pyMin h
  if hMin ≥ 0 ∧ hMax > P.hSkip then
    return (argmaxBool (h.map fun x => decide (x > P.hSkip)), 1)
  else if hMin ≥ P.hTrap ∧ hMax < P.hSkip then
    return (h.length, 0)
  else if hMin ≤ P.hTrap then
    return (argmaxBool (h.map fun x => decide (x < P.hTrap)), -1)
  else
    return (h.length, 0)

/-- The attributes assigned by `propogateEntry` (vehicle.py:2491-2515).  `accNetG` entries are `none` where NumPy
stores NaN. -/
structure PropOut where
  index : ℕ
  exitflag : ℤ
  c : TrajArrays
  plotc : TrajArrays
  accNetG : List (Option ℝ)
  accDragG : List ℝ
  dynPresAtm : List ℝ
  stagPresAtm : List ℝ
  qStagCon : List ℝ
  qStagRad : List ℝ
  qStagTotal : List ℝ
  heatload : List ℝ

namespace Vehicle

/-- vehicle.py:2459-2471 (and 2546-2558, 2728-2740): the SI entry state. -/
def entryState (P : Planet) (s : InitState) : FState :=
  { r := P.computeR (s.h0Km * 1.0E3), theta := s.theta0Deg * Real.pi / 180.0,
    phi := s.phi0Deg * Real.pi / 180.0, v := s.v0Kms * 1.000E3, psi := s.psi0Deg * Real.pi / 180.0,
    gamma := s.gamma0Deg * Real.pi / 180.0, drange := s.drange0Km * 1E3 }

/-- vehicle.py:1729, 1806: the output grid in dimensionless time. -/
def tGrid (P : Planet) (tSec dt : ℝ) : List ℝ := arange0 ((tSec + dt) / P.tau) (dt / P.tau)

/-- `solveTrajectory` (vehicle.py:1673-1744). -/
def solveTrajectory (V : Vehicle) (I : Integrator) (y0 : FState) (tSec dt delta : ℝ) : TrajArrays :=
  TrajArrays.ofSamples (I (fun t y => V.EOM y t delta) y0 (tGrid V.planet tSec dt))

/-- `solveTrajectory2` (vehicle.py:1750-1822); the event is part of the integrator. -/
def solveTrajectory2 (V : Vehicle) (I : Integrator) (y0 : FState) (tSec dt delta : ℝ) : TrajArrays :=
  TrajArrays.ofSamples (I (fun t y => V.EOM2 t y delta) y0 (tGrid V.planet tSec dt))

/-- One element of `computeAccelerationLoad` (vehicle.py:2057-2098).  The lateral term is `acc_w*2.0`, as in the
source (line 2095), not `acc_w**2.0`. -/
def accNet (V : Vehicle) (delta r v : ℝ) : Option ℝ :=
  (npSqrt (V.a_svec r v ^ 2 + V.a_nvec r v delta ^ 2 + V.a_wvec r v delta * 2.0)).map (· / V.planet.EARTHG)

/-- One element of `computeAccelerationDrag` (vehicle.py:2100-2141).  The radicand is `acc_s²`, so no NaN arises. -/
def accDrag (V : Vehicle) (delta r v : ℝ) : ℝ :=
  Real.sqrt (V.a_svec r v ^ 2 + 0.0 * V.a_nvec r v delta ^ 2 + 0.0 * V.a_wvec r v delta * 2.0)
    / V.planet.EARTHG

/-- One element of `computeDynPres` (vehicle.py:2143-2165). -/
def dynPres (V : Vehicle) (r v : ℝ) : ℝ := 0.5 * V.planet.rhoVec V.atm r * v ^ 2

/-- One element of `computeStagPres` (vehicle.py:2167-2191). -/
def stagPres (V : Vehicle) (r v : ℝ) : ℝ := V.planet.pressureVec V.atm r + V.dynPres r v

/-- The part of `propogateEntry`/`propogateEntry2`/`propogateEntry_util` after the integration
(vehicle.py:2482-2515, 2569-2602, 2751-2782), from the dimensionless solver output `bar`; `heatInit` is the
`initial` argument of `cumulative_trapezoid`. -/
def postProcess (V : Vehicle) (mode : ScipyMode) (bar : TrajArrays) (delta heatInit : ℝ) : Py PropOut := do
  let si := V.planet.dimensionalizeArr bar
  let plot := V.planet.toPlotUnits si
  let (index, exitflag) ← V.planet.classifyTrajectory si.r
  let c := si.truncate index
  let plotc := plot.truncate index
  let accNetG := List.zipWith (V.accNet delta) c.r c.v
  let accDragG := List.zipWith (V.accDrag delta) c.r c.v
  let dyn := (List.zipWith V.dynPres c.r c.v).map (· / 1.01325E5)
  let stag := (List.zipWith V.stagPres c.r c.v).map (· / 1.01325E5)
  let qc ← needNumber (V.qStagConvective c.r c.v)
  let qr ← needNumber (V.qStagRadiative c.r c.v)
  let qt := List.zipWith (· + ·) qc qr
  let heat ← cumTrapz mode (List.zip c.t qt) heatInit
  return { index := index, exitflag := exitflag, c := c, plotc := plotc, accNetG := accNetG,
           accDragG := accDragG, dynPresAtm := dyn, stagPresAtm := stag, qStagCon := qc, qStagRad := qr,
           qStagTotal := qt, heatload := heat }

/-- `propogateEntry` (vehicle.py:2430-2515).  The stored attributes are returned as a `PropOut`. -/
def propogateEntry (V : Vehicle) (mode : ScipyMode) (I : Integrator) (tSec dt deltaDeg : ℝ) : Py PropOut :=
  let delta := deltaDeg * Real.pi / 180.0
  V.postProcess mode
    (V.solveTrajectory I (V.planet.nonDimState (entryState V.planet V.init)) tSec dt delta) delta 0

/-- `propogateEntry2` (vehicle.py:2517-2602): as `propogateEntry`, with `solve_ivp` and `initial=self.heatLoad0`. -/
def propogateEntry2 (V : Vehicle) (mode : ScipyMode) (I : Integrator) (tSec dt deltaDeg : ℝ) : Py PropOut :=
  let delta := deltaDeg * Real.pi / 180.0
  V.postProcess mode
    (V.solveTrajectory2 I (V.planet.nonDimState (entryState V.planet V.init)) tSec dt delta) delta
    V.init.heatLoad0

/-- `dummyVehicle` (vehicle.py:2604-2626): a deep copy flying in the measured density. -/
def dummyVehicle (V : Vehicle) (densityMes : ℝ → ℝ) : Vehicle :=
  { V with atm := { V.atm with densityInt := densityMes } }

/-- `propogateEntry_util` (vehicle.py:2628-2786). The source deep-copies planet and vehicle, so the vehicle
itself is only read. -/
def propogateEntryUtil (V : Vehicle) (mode : ScipyMode) (I : Integrator) (s : InitState)
    (tSec dt deltaDeg : ℝ) (densityMes : ℝ → ℝ) : Py PropOut :=
  let W := V.dummyVehicle densityMes
  let delta := deltaDeg * Real.pi / 180.0
  W.postProcess mode
    (W.solveTrajectory I (W.planet.nonDimState (entryState W.planet s)) tSec dt delta) delta s.heatLoad0

/-- `propogateEntry_util2` (vehicle.py:2788-2943). -/
def propogateEntryUtil2 (V : Vehicle) (mode : ScipyMode) (I : Integrator) (s : InitState)
    (tSec dt deltaDeg : ℝ) (densityMes : ℝ → ℝ) : Py PropOut :=
  let W := V.dummyVehicle densityMes
  let delta := deltaDeg * Real.pi / 180.0
  W.postProcess mode
    (W.solveTrajectory2 I (W.planet.nonDimState (entryState W.planet s)) tSec dt delta) delta s.heatLoad0

end Vehicle

end AMAT
