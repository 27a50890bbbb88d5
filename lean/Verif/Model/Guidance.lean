import Verif.Model.Corridor

/-
Model of the guided entry simulations in `/repo/AMAT/vehicle.py`: measured density (4456-4517), roll-rate limiter
(4519-4574), apoapsis prediction (4576-4670, 6403-6865), entry phases (4762-5253, 5954-6401), exit phases (5255-5634,
6867-7250) and their composition (5636-5668, 7252-7291).

The eight phase functions of the source are copies of two texts that differ only in the called propagator, the bank
command, the predictor and a threshold; the model has the two texts once, with a record for the differences.

`while` loops are recursions on a fuel argument; `none` means "still running".  A division by zero between NumPy
numbers does not raise but yields infinities or NaN; what the source does with them afterwards is not modelled: such a
run stops with `Stop.nonFinite`.
-/

noncomputable section

open Classical

namespace AMAT

/-- Why a simulation does not deliver a result. -/
inductive Stop where
  | raised (e : PyErr)
  | nonFinite
  deriving DecidableEq

/-- A simulation step. -/
abbrev Run (α : Type) := Except Stop α

/-- A python exception ends the simulation. -/
def liftPy {α : Type} : Py α → Run α
  | .ok x => .ok x
  | .error e => .error (.raised e)

/-- A value needed as a finite number. -/
def finite {α : Type} : Option α → Run α
  | some x => .ok x
  | none => .error .nonFinite

/-- `l[-1]`. -/
def pyLast {α : Type} (l : List α) : Py α :=
  match l.getLast? with
  | some x => .ok x
  | none => .error .indexError

/-- `np.sign`. -/
def npSign (x : ℝ) : ℝ := if 0 < x then 1 else if x < 0 then -1 else 0

/-- The attributes set by `setMaxRollRate` (4519-4528), `setTargetOrbitParams` (4672-4688),
`setEquilibriumGlideParams` (4762-4790), `setDragEntryPhaseParams` (5954-5977) and `setDragModulationVehicleParams`
(3744-3757). -/
structure GuideParams where
  maxRollRate : ℝ
  Ghdot : ℝ
  Gq : ℝ
  vSwitchKms : ℝ
  lowAltKm : ℝ
  numPointsLowAlt : ℕ
  hdotThreshold : ℝ
  targetPeriKm : ℝ
  targetApoKm : ℝ
  targetApoKmTol : ℝ
  beta1 : ℝ
  betaRatio : ℝ

/-- `psuedoController` (vehicle.py:4530-4574).  Both branches compute the same value, as in the source (lines 4561 and
4570); the variable `bankRate` of the second branch is unused there. -/
def psuedoController (maxRollRate cmd ini timestep : ℝ) : ℝ × ℝ :=
  if |cmd - ini| > maxRollRate * timestep then
    (ini + npSign (cmd - ini) * maxRollRate * timestep, ini + npSign (cmd - ini) * maxRollRate * timestep)
  else
    (ini + npSign (cmd - ini) * maxRollRate * timestep, ini + npSign (cmd - ini) * maxRollRate * timestep)

/-- `createDensityMeasuredFunction` (vehicle.py:4456-4517): the measured-density function and the lowest measured
altitude.  The first entry of both arrays is the initial `0.0` and is deleted. -/
def createDensityMeasuredFunction (P : Planet) (atm : Atmosphere) (mode : ScipyMode) (hStep dens : List ℝ)
    (lowAltKm : ℝ) (n : ℕ) : Run ((ℝ → ℝ) × ℝ) := do
  let h := hStep.drop 1
  let d := dens.drop 1
  let hMin ← liftPy (pyMin h)
  let minAlt := hMin * 1E3
  let dMax ← liftPy (pyMax d)
  let dMin ← liftPy (pyMin d)
  let hm := h.map (· * 1000.0)
  let upper ← liftPy (interp1d (List.zip hm d) dMax dMin)
  let H ← liftPy (P.scaleHeight atm mode minAlt upper)
  let H ← finite H
  if H = 0 then .error .nonFinite
  let hLow := linspace (minAlt - 1000.0) (lowAltKm * 1E3) n
  let dLow := hLow.map (fun x => upper minAlt * Real.exp ((minAlt - x) / H))
  let all := d ++ dLow
  let aMax ← liftPy (pyMax all)
  let aMin ← liftPy (pyMin all)
  let f ← liftPy (interp1d (List.zip (hm ++ hLow) all) aMax aMin)
  return (f, minAlt)

/-- The trajectory histories accumulated by the phases, in plot units (vehicle.py:4827-4840, 4952-4967, 5275-5288,
5381-5395). -/
@[ext] structure Hist where
  t : List ℝ
  h : List ℝ
  v : List ℝ
  phi : List ℝ
  psi : List ℝ
  theta : List ℝ
  gamma : List ℝ
  drange : List ℝ
  accNetG : List (Option ℝ)
  dynPresAtm : List ℝ
  stagPresAtm : List ℝ
  qStagTotal : List ℝ
  heatload : List ℝ

namespace Hist

/-- vehicle.py:4827-4840, 4919-4932: the arrays of one propagated segment. -/
def ofOut (o : PropOut) : Hist :=
  { t := o.plotc.t, h := o.plotc.r, v := o.plotc.v, phi := o.plotc.phi, psi := o.plotc.psi, theta := o.plotc.theta,
    gamma := o.plotc.gamma, drange := o.plotc.drange, accNetG := o.accNetG, dynPresAtm := o.dynPresAtm,
    stagPresAtm := o.stagPresAtm, qStagTotal := o.qStagTotal, heatload := o.heatload }

/-- vehicle.py:4936, 4952-4967: the segment times are shifted by the last accumulated time, then everything is
concatenated. -/
def extend (a b : Hist) (tEnd : ℝ) : Hist :=
  { t := a.t ++ b.t.map (· + tEnd), h := a.h ++ b.h, v := a.v ++ b.v, phi := a.phi ++ b.phi, psi := a.psi ++ b.psi,
    theta := a.theta ++ b.theta, gamma := a.gamma ++ b.gamma, drange := a.drange ++ b.drange,
    accNetG := a.accNetG ++ b.accNetG, dynPresAtm := a.dynPresAtm ++ b.dynPresAtm,
    stagPresAtm := a.stagPresAtm ++ b.stagPresAtm, qStagTotal := a.qStagTotal ++ b.qStagTotal,
    heatload := a.heatload ++ b.heatload }

/-- vehicle.py:4858-4864, 5313-5319: the current state, with heat load `J`. -/
def last (a : Hist) (J : ℝ) : Py InitState := do
  let h ← pyLast a.h
  let theta ← pyLast a.theta
  let phi ← pyLast a.phi
  let v ← pyLast a.v
  let psi ← pyLast a.psi
  let gamma ← pyLast a.gamma
  let drange ← pyLast a.drange
  return { h0Km := h, theta0Deg := theta, phi0Deg := phi, v0Kms := v, psi0Deg := psi, gamma0Deg := gamma,
           drange0Km := drange, heatLoad0 := J }

end Hist

namespace Vehicle

/-- The terminal state in SI units passed to `compute_ApoapsisAltitudeKm` (vehicle.py:4616-4619, 5427-5434). -/
def terminalOf (P : Planet) (s : InitState) : Terminal :=
  { r := P.RP + s.h0Km * 1E3, v := s.v0Kms * 1E3, g := s.gamma0Deg * Real.pi / 180.0,
    theta := s.theta0Deg * Real.pi / 180.0, phi := s.phi0Deg * Real.pi / 180.0,
    psi := s.psi0Deg * Real.pi / 180.0 }

/-- `propogateEntry_utilD` (vehicle.py:6521-6693): the copy additionally gets the ballistic coefficient after
jettison. -/
def propogateEntryUtilD (V : Vehicle) (G : GuideParams) (mode : ScipyMode) (I : Integrator) (s : InitState)
    (tSec dt deltaDeg : ℝ) (densityMes : ℝ → ℝ) : Py PropOut :=
  let W := (V.dummyVehicle densityMes).setBeta (G.beta1 * G.betaRatio)
  let delta := deltaDeg * Real.pi / 180.0
  W.postProcess mode
    (W.solveTrajectory I (W.planet.nonDimState (entryState W.planet s)) tSec dt delta) delta 0

/-- `propogateEntry_utilD2` (vehicle.py:6695-6865). -/
def propogateEntryUtilD2 (V : Vehicle) (G : GuideParams) (mode : ScipyMode) (I : Integrator) (s : InitState)
    (tSec dt deltaDeg : ℝ) (densityMes : ℝ → ℝ) : Py PropOut :=
  let W := (V.dummyVehicle densityMes).setBeta (G.beta1 * G.betaRatio)
  let delta := deltaDeg * Real.pi / 180.0
  W.postProcess mode
    (W.solveTrajectory2 I (W.planet.nonDimState (entryState W.planet s)) tSec dt delta) delta s.heatLoad0

/-- vehicle.py:4611-4621, 4658-4670, 6447-6459, 6505-6517: apoapsis altitude at the end of a predicted trajectory. -/
def predictedApoapsis (V : Vehicle) (r : Py PropOut) : Py (Option ℝ) := do
  let out ← r
  let s ← (Hist.ofOut out).last 0
  return (terminalOf V.planet s).apoapsisAltitudeKm V.planet

/-- The equilibrium-glide bank command in degrees and the reference dynamic pressure (vehicle.py:4866-4910).
`mass*g0/(0.75*CL*A)` is a division of Python floats, which raises for a ballistic vehicle. -/
def glideCommand (V : Vehicle) (G : GuideParams) (s : InitState) : Run (ℝ × ℝ) := do
  let g0 := V.planet.GM / V.planet.RP ^ 2
  let ri := s.h0Km * 1.0E3 + V.planet.RP
  let vi := s.v0Kms * 1.000E3
  let qi := 0.5 * V.planet.density V.atm (s.h0Km * 1.0E3) * vi ^ 2
  let hdoti := vi * Real.sin (s.gamma0Deg * Real.pi / 180.0)
  if 0.75 * V.CL * V.A = 0 then .error (.raised .zeroDivisionError)
  let qrefi := (-1.0 * V.mass * g0) / (0.75 * V.CL * V.A) * (1 - vi ^ 2 / (g0 * ri))
  if qi = 0 then .error .nonFinite
  let cosEQGL := ((V.mass * g0) / (V.CL * qi * V.A)) * (1.0 - vi ^ 2 / (g0 * ri))
  let cosCMD := cosEQGL - G.Ghdot * hdoti / qi + G.Gq * ((qi - qrefi) / qi)
  let cmd := if cosCMD > 1.0 then 0.0 else if cosCMD < -1.0 then Real.pi else Real.arccos cosCMD
  return (cmd * 180.0 / Real.pi, qrefi)

end Vehicle

/-! ### Entry phases -/

/-- What distinguishes the four entry-phase functions. -/
structure EntryPhase where
  /-- the segment propagator -/
  prop : Vehicle → ℝ → ℝ → ℝ → Py PropOut
  /-- vehicle, current state, previous bank angle, time step ↦ bank angle flown and reference dynamic pressure if
  recorded -/
  command : Vehicle → InitState → ℝ → ℝ → Run (ℝ × Option ℝ)
  /-- vehicle, current state, max. time, dt, measured density ↦ predicted apoapsis -/
  predict : Vehicle → InitState → ℝ → ℝ → (ℝ → ℝ) → Py (Option ℝ)
  /-- margin below the skip altitude at which the phase ends, km -/
  margin : ℝ

/-- Variables and attributes of an entry phase. -/
structure EntryState where
  V : Vehicle
  hist : Hist
  accDragG : List ℝ
  /-- `self.heatload`, of the last segment only -/
  segHeat : List ℝ
  /-- `self.v_current_kms` (vehicle.py:4845), the attribute tested by the loop -/
  vAttr : ℝ
  deltaIni : ℝ
  densityFn : Option (ℝ → ℝ)
  tStep : List ℝ
  deltaDeg : List ℝ
  hdot : List ℝ
  hddot : List (Option ℝ)
  qref : List ℝ
  q : List ℝ
  hStep : List ℝ
  accStep : List (Option ℝ)
  accDragStep : List ℝ
  densityMes : List (Option ℝ)
  /-- `self.hdotref_array`; `None` after `__init__` (vehicle.py:437), otherwise what an earlier run left -/
  hdotref : Option (List (Option ℝ))

/-- vehicle.py:4807-4849 (6002-6040): initialisation, including a first segment of one second with zero bank. -/
def entryStart (F : EntryPhase) (V : Vehicle) (hdotref : Option (List (Option ℝ))) (dt : ℝ) : Run EntryState := do
  let out ← liftPy (F.prop V 1.0 dt 0.0)
  let hist := Hist.ofOut out
  let _ ← liftPy (pyLast hist.h)
  let v ← liftPy (pyLast hist.v)
  return { V := V, hist := hist, accDragG := out.accDragG, segHeat := out.heatload, vAttr := v, deltaIni := 0.0,
           densityFn := none, tStep := [0.0], deltaDeg := [0.0], hdot := [0.0], hddot := [some 0.0], qref := [0.0],
           q := [0.0], hStep := [0.0], accStep := [some 0.0], accDragStep := [0.0], densityMes := [some 0.0],
           hdotref := hdotref }

/-- `(l[-1] - l[-2]) / (t[-1]*60.0 - t[-2]*60.0)` after the appends (vehicle.py:4946, 5375). -/
def hddotOf (hdotOld hdotNew tOld tNew : ℝ) : Option ℝ := npDiv (hdotNew - hdotOld) (tNew * 60.0 - tOld * 60.0)

/-- vehicle.py:4997-5004: the three ways out of the loop.  A predicted apoapsis that is not a number fails both
comparisons. -/
def entryBreak (G : GuideParams) (P : Planet) (margin : ℝ) (apo : Option ℝ) (hKm : ℝ) : Prop :=
  (∃ a, apo = some a ∧ ((a > 0 ∧ a < G.targetApoKm) ∨ |a - G.targetApoKm| < G.targetApoKmTol)) ∨
    hKm > P.hSkip / 1000 - margin

/-- One turn of the loop of `propogateEquilibriumGlide` (vehicle.py:4858-5004) and its three copies; the flag says
whether the loop is left. -/
def entryCycle (G : GuideParams) (F : EntryPhase) (mode : ScipyMode) (timeStep dt maxTime : ℝ) (s : EntryState) :
    Run (EntryState × Bool) := do
  let J ← liftPy (pyLast s.segHeat)
  let x ← liftPy (s.hist.last J)
  let vi := x.v0Kms * 1.000E3
  let qi := 0.5 * s.V.planet.density s.V.atm (x.h0Km * 1.0E3) * vi ^ 2
  let hdoti := vi * Real.sin (x.gamma0Deg * Real.pi / 180.0)
  let (delta, qrefi) ← F.command s.V x s.deltaIni timeStep
  let V := s.V.setInitialState x
  let out ← liftPy (F.prop V timeStep dt delta)
  let tEnd ← liftPy (pyLast s.hist.t)
  let hdotOld ← liftPy (pyLast s.hdot)
  let tOld ← liftPy (pyLast s.tStep)
  let tStep := s.tStep ++ [tEnd]
  let accNetLast ← liftPy (pyLast out.accNetG)
  let accDragLast ← liftPy (pyLast out.accDragG)
  let hist := s.hist.extend (Hist.ofOut out) tEnd
  let J' ← liftPy (pyLast hist.heatload)
  let y ← liftPy (hist.last J')
  let rhoMes := npDiv (2 * V.mass * accDragLast * V.planet.EARTHG)
    (V.CD * V.A * (0.5 * (vi + y.v0Kms * 1E3)) ^ 2)
  let densityMes := s.densityMes ++ [rhoMes]
  let hStep := s.hStep ++ [x.h0Km]
  let densityFn ← (if hdoti > G.hdotThreshold ∧ s.densityFn = none then do
      let dens ← finite (densityMes.mapM id)
      let (f, _) ← createDensityMeasuredFunction V.planet V.atm mode hStep dens G.lowAltKm G.numPointsLowAlt
      return some f
    else return s.densityFn)
  let apo ← (if hdoti > G.hdotThreshold then do
      let f ← liftPy (getAttr densityFn)
      liftPy (F.predict V y maxTime dt f)
    else return some 0.0)
  return ({ V := V, hist := hist, accDragG := s.accDragG ++ out.accDragG, segHeat := out.heatload, vAttr := s.vAttr,
            deltaIni := delta, densityFn := densityFn, tStep := tStep, deltaDeg := s.deltaDeg ++ [delta],
            hdot := s.hdot ++ [hdoti], hddot := s.hddot ++ [hddotOf hdotOld hdoti tOld tEnd],
            qref := s.qref ++ qrefi.toList, q := s.q ++ [qi], hStep := hStep,
            accStep := s.accStep ++ [accNetLast, accNetLast], accDragStep := s.accDragStep ++ [accDragLast],
            densityMes := densityMes, hdotref := some (List.replicate tStep.length (some 0.0)) },
          decide (entryBreak G V.planet F.margin apo y.h0Km))

/-- The loop of the entry phases (vehicle.py:4854-5004). -/
def entryLoop (G : GuideParams) (F : EntryPhase) (mode : ScipyMode) (timeStep dt maxTime : ℝ) :
    ℕ → EntryState → Option (Run EntryState)
  | 0, _ => none
  | fuel + 1, s =>
    if s.vAttr > G.vSwitchKms then
      match entryCycle G F mode timeStep dt maxTime s with
      | .error e => some (.error e)
      | .ok (s', true) => some (.ok s')
      | .ok (s', false) => entryLoop G F mode timeStep dt maxTime fuel s'
    else some (.ok s)

/-- An entry phase: initialisation followed by the loop. -/
def entryPhase (G : GuideParams) (F : EntryPhase) (mode : ScipyMode) (fuel : ℕ) (V : Vehicle)
    (hdotref : Option (List (Option ℝ))) (timeStep dt maxTime : ℝ) : Option (Run EntryState) :=
  match entryStart F V hdotref dt with
  | .error e => some (.error e)
  | .ok s => entryLoop G F mode timeStep dt maxTime fuel s

namespace Vehicle

/-- The bank command of the equilibrium-glide phases (vehicle.py:4886-4912). -/
def glideBank (G : GuideParams) (V : Vehicle) (x : InitState) (deltaIni timeStep : ℝ) : Run (ℝ × Option ℝ) := do
  let (cmd, qref) ← V.glideCommand G x
  return ((psuedoController G.maxRollRate cmd deltaIni timeStep).1, some qref)

/-- The bank angle of the drag-modulation phases (vehicle.py:6088, 6301): always zero, no reference recorded. -/
def dragBank (_V : Vehicle) (_x : InitState) (_deltaIni _timeStep : ℝ) : Run (ℝ × Option ℝ) := .ok (0.0, none)

/-- `propogateEquilibriumGlide` (vehicle.py:4792-5020). -/
def glide1 (G : GuideParams) (mode : ScipyMode) (I : Integrator) : EntryPhase where
  prop := fun V t dt delta => V.propogateEntry mode I t dt delta
  command := glideBank G
  predict := fun V y tMax dt f => V.predictedApoapsis (V.propogateEntryUtil mode I y tMax dt 0.0 f)
  margin := 2.0

/-- `propogateEquilibriumGlide2` (vehicle.py:5022-5253): propagates with `solve_ivp`, predicts with `odeint`. -/
def glide2 (G : GuideParams) (mode : ScipyMode) (I I' : Integrator) : EntryPhase where
  prop := fun V t dt delta => V.propogateEntry2 mode I' t dt delta
  command := glideBank G
  predict := fun V y tMax dt f => V.predictedApoapsis (V.propogateEntryUtil mode I y tMax dt 0.0 f)
  margin := 2.0

/-- `propogateEntryPhaseD` (vehicle.py:5981-6190), after `self.beta = self.beta1`. -/
def drag1 (G : GuideParams) (mode : ScipyMode) (I : Integrator) : EntryPhase where
  prop := fun V t dt delta => V.propogateEntry mode I t dt delta
  command := dragBank
  predict := fun V y tMax dt f => V.predictedApoapsis (V.propogateEntryUtilD G mode I y tMax dt 0.0 f)
  margin := 1.0

/-- `propogateEntryPhaseD2` (vehicle.py:6192-6401). -/
def drag2 (G : GuideParams) (mode : ScipyMode) (I' : Integrator) : EntryPhase where
  prop := fun V t dt delta => V.propogateEntry2 mode I' t dt delta
  command := dragBank
  predict := fun V y tMax dt f => V.predictedApoapsis (V.propogateEntryUtilD2 G mode I' y tMax dt 0.0 f)
  margin := 1.0

end Vehicle

/-! ### Exit phases -/

/-- What distinguishes the four exit-phase functions. -/
structure ExitPhase where
  prop : Vehicle → ℝ → ℝ → ℝ → Py PropOut
  /-- previous bank angle, time step ↦ bank angle flown -/
  command : ℝ → ℝ → ℝ
  /-- altitude (m) at the start of the cycle ↦ leave the loop after it -/
  stop : Planet → ℝ → Prop

/-- Variables and attributes of an exit phase. -/
structure ExitState where
  V : Vehicle
  hist : Hist
  hCur : ℝ
  deltaIni : ℝ
  tStep : List ℝ
  deltaDeg : List ℝ
  hdot : List ℝ
  hddot : List (Option ℝ)
  hdotref : List (Option ℝ)

/-- vehicle.py:5269-5304 (6886-6917).  The heat load `Ji` and the reference altitude rate are read once.  If no cycle
of the entry loop has ever set `hdotref_array`, it is `None`, and `np.append` (5373) makes it the array `[None, …]`. -/
def exitStart (V : Vehicle) (s : EntryState) : Run (ExitState × ℝ × ℝ) := do
  let _ ← liftPy (pyLast s.hist.t)
  let h ← liftPy (pyLast s.hist.h)
  let _ ← liftPy (pyLast s.hist.v)
  let p ← liftPy (pyLast s.deltaDeg)
  let hdotRef ← liftPy (pyLast s.hdot)
  let J ← liftPy (pyLast s.hist.heatload)
  return ({ V := V, hist := s.hist, hCur := h, deltaIni := p, tStep := s.tStep, deltaDeg := s.deltaDeg, hdot := s.hdot,
            hddot := s.hddot, hdotref := s.hdotref.getD [none] }, J, hdotRef)

/-- One turn of the loop of `propogateExitPhase` (vehicle.py:5313-5409) and its copies.  Not modelled: the local
variables without effect (`qi`, the apoapsis of every cycle). -/
def exitCycle (F : ExitPhase) (timeStep dt J hdotRef : ℝ) (s : ExitState) : Run (ExitState × Bool) := do
  let x ← liftPy (s.hist.last J)
  let hdoti := x.v0Kms * 1.000E3 * Real.sin (x.gamma0Deg * Real.pi / 180.0)
  let delta := F.command s.deltaIni timeStep
  let V := s.V.setInitialState x
  let out ← liftPy (F.prop V timeStep dt delta)
  let tEnd ← liftPy (pyLast s.hist.t)
  let hdotOld ← liftPy (pyLast s.hdot)
  let tOld ← liftPy (pyLast s.tStep)
  let hist := s.hist.extend (Hist.ofOut out) tEnd
  let y ← liftPy (hist.last J)
  return ({ V := V, hist := hist, hCur := y.h0Km, deltaIni := delta, tStep := s.tStep ++ [tEnd],
            deltaDeg := s.deltaDeg ++ [delta], hdot := s.hdot ++ [hdoti],
            hddot := s.hddot ++ [hddotOf hdotOld hdoti tOld tEnd], hdotref := s.hdotref ++ [some hdotRef] },
          decide (F.stop V.planet (x.h0Km * 1.0E3)))

/-- The loop of the exit phases (vehicle.py:5306-5409). -/
def exitLoop (F : ExitPhase) (timeStep dt J hdotRef : ℝ) : ℕ → ExitState → Option (Run ExitState)
  | 0, _ => none
  | fuel + 1, s =>
    if s.hCur < s.V.planet.hSkip / 1.0E3 then
      match exitCycle F timeStep dt J hdotRef s with
      | .error e => some (.error e)
      | .ok (s', true) => some (.ok s')
      | .ok (s', false) => exitLoop F timeStep dt J hdotRef fuel s'
    else some (.ok s)

/-- The results of a guided entry: final histories and vehicle, apsis altitudes (km), apoapsis error (percent),
manoeuvre costs.  `none` is a value that is not a finite number. -/
structure GuidedOut where
  fin : ExitState
  apoapsis : Option ℝ
  periapsis : Option ℝ
  percError : Option ℝ
  periapsisRaiseDV : Option ℝ
  apoapsisRaiseDV : Option ℝ

/-- vehicle.py:5411-5440. -/
def exitResults (G : GuideParams) (s : ExitState) : Run GuidedOut := do
  let y ← liftPy (s.hist.last 0)
  let T := Vehicle.terminalOf s.V.planet y
  let apo := T.apoapsisAltitudeKm s.V.planet
  let peri := T.periapsisAltitudeKm s.V.planet
  return { fin := s, apoapsis := apo, periapsis := peri,
           percError := do let a ← apo; npDiv ((a - G.targetApoKm) * 100.0) G.targetApoKm,
           periapsisRaiseDV := do let a ← apo; let p ← peri; s.V.planet.periapsisRaiseDV p a G.targetPeriKm,
           apoapsisRaiseDV := do let a ← apo; s.V.planet.apoapsisRaiseDV G.targetPeriKm a G.targetApoKm }

/-- An exit phase: initialisation, loop, results. -/
def exitPhase (G : GuideParams) (F : ExitPhase) (fuel : ℕ) (V : Vehicle) (e : EntryState) (timeStep dt : ℝ) :
    Option (Run GuidedOut) :=
  match exitStart V e with
  | .error err => some (.error err)
  | .ok (s, J, hdotRef) =>
    match exitLoop F timeStep dt J hdotRef fuel s with
    | none => none
    | some (.error err) => some (.error err)
    | some (.ok s') => some (exitResults G s')

namespace Vehicle

/-- `propogateExitPhase` (vehicle.py:5255-5440): command zero through the roll-rate limiter. -/
def exit1 (G : GuideParams) (mode : ScipyMode) (I : Integrator) : ExitPhase where
  prop := fun V t dt delta => V.propogateEntry mode I t dt delta
  command := fun ini ts => (psuedoController G.maxRollRate 0.0 ini ts).1
  stop := fun P h => h > P.hSkip - 10.0E3

/-- `propogateExitPhase2` (vehicle.py:5445-5634). -/
def exit2 (G : GuideParams) (mode : ScipyMode) (I' : Integrator) : ExitPhase where
  prop := fun V t dt delta => V.propogateEntry2 mode I' t dt delta
  command := fun ini ts => (psuedoController G.maxRollRate 0.0 ini ts).1
  stop := fun P h => h > P.hSkip - 10.0E3

/-- `propogateExitPhaseD` (vehicle.py:6867-7060). -/
def exitD1 (mode : ScipyMode) (I : Integrator) : ExitPhase where
  prop := fun V t dt delta => V.propogateEntry mode I t dt delta
  command := fun _ _ => 0.0
  stop := fun P h => h > P.hSkip - 1.0E3 ∨ h < 20.0E3

/-- `propogateExitPhaseD2` (vehicle.py:7062-7250). -/
def exitD2 (mode : ScipyMode) (I' : Integrator) : ExitPhase where
  prop := fun V t dt delta => V.propogateEntry2 mode I' t dt delta
  command := fun _ _ => 0.0
  stop := fun P h => h > P.hSkip - 1.0E3 ∨ h < 20.0E3

/-- Entry phase followed by exit phase.  `prep` is what the exit phase does to the vehicle first. -/
def guided (G : GuideParams) (FE : EntryPhase) (FX : ExitPhase) (mode : ScipyMode) (fuel : ℕ) (V : Vehicle)
    (hdotref : Option (List (Option ℝ))) (prep : Vehicle → Vehicle) (timeStepEntry timeStepExit dt maxTime : ℝ) :
    Option (Run GuidedOut) :=
  match entryPhase G FE mode fuel V hdotref timeStepEntry dt maxTime with
  | none => none
  | some (.error e) => some (.error e)
  | some (.ok s) => exitPhase G FX fuel (prep s.V) s timeStepExit dt

/-- `propogateGuidedEntry` (vehicle.py:5636-5651). -/
def propogateGuidedEntry (G : GuideParams) (mode : ScipyMode) (I : Integrator) (fuel : ℕ) (V : Vehicle)
    (hdotref : Option (List (Option ℝ))) (timeStep dt maxTime : ℝ) : Option (Run GuidedOut) :=
  guided G (glide1 G mode I) (exit1 G mode I) mode fuel V hdotref (fun W => W) timeStep timeStep dt maxTime

/-- `propogateGuidedEntry2` (vehicle.py:5653-5668). -/
def propogateGuidedEntry2 (G : GuideParams) (mode : ScipyMode) (I I' : Integrator) (fuel : ℕ) (V : Vehicle)
    (hdotref : Option (List (Option ℝ))) (timeStep dt maxTime : ℝ) : Option (Run GuidedOut) :=
  guided G (glide2 G mode I I') (exit2 G mode I') mode fuel V hdotref (fun W => W) timeStep timeStep dt maxTime

/-- `propogateGuidedEntryD` (vehicle.py:7252-7270); each phase first sets its ballistic coefficient (6002-6003,
6882-6883). -/
def propogateGuidedEntryD (G : GuideParams) (mode : ScipyMode) (I : Integrator) (fuel : ℕ) (V : Vehicle)
    (hdotref : Option (List (Option ℝ))) (timeStepEntry timeStepExit dt maxTime : ℝ) : Option (Run GuidedOut) :=
  guided G (drag1 G mode I) (exitD1 mode I) mode fuel (V.setBeta G.beta1) hdotref
    (fun W => W.setBeta (G.beta1 * G.betaRatio)) timeStepEntry timeStepExit dt maxTime

/-- `propogateGuidedEntryD2` (vehicle.py:7273-7291). -/
def propogateGuidedEntryD2 (G : GuideParams) (mode : ScipyMode) (I' : Integrator) (fuel : ℕ) (V : Vehicle)
    (hdotref : Option (List (Option ℝ))) (timeStepEntry timeStepExit dt maxTime : ℝ) : Option (Run GuidedOut) :=
  guided G (drag2 G mode I') (exitD2 mode I') mode fuel (V.setBeta G.beta1) hdotref
    (fun W => W.setBeta (G.beta1 * G.betaRatio)) timeStepEntry timeStepExit dt maxTime

end Vehicle

end AMAT
