import Verif.Model.Guidance

/-
Model of the Monte Carlo simulations in `/repo/AMAT/vehicle.py`: `setupMonteCarloSimulation` (5671-5739),
`runMonteCarlo` (5742-5840), `runMonteCarlo2` (5842-5950), `setupMonteCarloSimulationD` (7295-7371),
`setupMonteCarloSimulationD_Earth` (7373-7446), `runMonteCarloD` (7448-7554), `runMonteCarloD2` (7556-7666),
`runMonteCarloD_Earth` (7669-7776).

The random draws are a list of samples, one per run; the theorems hold for every such list.  The text files with
density profiles are a function from file names to their rows.  Not modelled: printing.  The folders and
result files are in `Model/MonteCarloFiles.lean`; their contents are the records below.
-/

noncomputable section

namespace AMAT

/-- The values drawn for one run (vehicle.py:5777-5781; the drag-modulation versions log `LD = 0.0`, 7500). -/
structure MCSample where
  file : String
  profile : ℕ
  efpa : ℝ
  sigma : ℝ
  LD : ℝ

/-- What the set-up functions store and the runs use: the density files read with the chosen columns
(`loadMonteCarloDensityFile2` or `3`), the length of a profile, and the reference entry state of the copy of the vehicle
made at set-up (vehicle.py:5716-5739, 5766-5772). -/
structure MCSetup where
  files : String → Py (List DensRow)
  NPOS : ℕ
  base : InitState

/-- `setupMonteCarloSimulation` and its copies (vehicle.py:5716-5739, 7346-7371, 7424-7446): `vehicleCopy` is a copy of
the vehicle as it is now.  The nominal values and standard deviations only feed the random draws. -/
def Vehicle.setupMonteCarlo (V : Vehicle) (files : String → Py (List DensRow)) (NPOS : ℕ) : MCSetup :=
  { files := files, NPOS := NPOS, base := V.initRef }

/-- What distinguishes the five run functions: the guided simulation and the reported heat load. -/
structure MCVariant where
  fly : ℕ → Vehicle → Option (List (Option ℝ)) → Option (Run GuidedOut)
  heat : Hist → Py ℝ

/-- The vehicle between runs: its attributes and those of its planet, `hdotref_array`, and the results of the last
guided simulation. -/
structure MCState where
  V : Vehicle
  hdotref : Option (List (Option ℝ))
  last : Option GuidedOut

/-- What is logged and stored for one run (vehicle.py:5795-5838).  `accNetGMax` is `none` if some acceleration is not a
number; what python's `max` then returns depends on the order and is not modelled. -/
@[ext] structure MCRecord where
  sample : MCSample
  apoapsis : Option ℝ
  percError : Option ℝ
  periapsis : Option ℝ
  periapsisRaiseDV : Option ℝ
  apoapsisRaiseDV : Option ℝ
  accNetGMax : Option ℝ
  qStagMax : ℝ
  heatloadMax : ℝ

/-- `max(self.acc_net_g_full)` (vehicle.py:5810); `none` if some entry is not a number. -/
def maxAcc (l : List (Option ℝ)) : Py (Option ℝ) :=
  match l.mapM id with
  | none => .ok none
  | some r => (pyMax r).map some

/-- vehicle.py:5796-5812: the results of a run read back from the vehicle. -/
def mcRecord (heat : Hist → Py ℝ) (x : MCSample) (o : GuidedOut) : Py MCRecord := do
  let acc ← maxAcc o.fin.hist.accNetG
  let q ← pyMax o.fin.hist.qStagTotal
  let j ← heat o.fin.hist
  return { sample := x, apoapsis := o.apoapsis, percError := o.percError, periapsis := o.periapsis,
           periapsisRaiseDV := o.periapsisRaiseDV, apoapsisRaiseDV := o.apoapsisRaiseDV, accNetGMax := acc,
           qStagMax := q, heatloadMax := j }

/-- vehicle.py:5783-5794: density profile and entry state of a run. -/
def mcPrepare (S : MCSetup) (V : Vehicle) (x : MCSample) : Py Vehicle := do
  let rows ← S.files x.file
  let f ← loadAtmosphereModel5 rows x.sigma S.NPOS x.profile
  return { V with atm := { V.atm with densityInt := f } }.setInitialState { S.base with gamma0Deg := x.efpa }

/-- One turn of the loop (vehicle.py:5776-5838). -/
def mcRun (M : MCVariant) (S : MCSetup) (fuel : ℕ) (s : MCState) (x : MCSample) : Option (Run (MCState × MCRecord)) :=
  match mcPrepare S s.V x with
  | .error e => some (.error (.raised e))
  | .ok V =>
    match M.fly fuel V s.hdotref with
    | none => none
    | some (.error e) => some (.error e)
    | some (.ok o) =>
      match mcRecord M.heat x o with
      | .error e => some (.error (.raised e))
      | .ok r => some (.ok ({ V := o.fin.V, hdotref := some o.fin.hdotref, last := some o }, r))

/-- How a Monte Carlo simulation ends. -/
inductive MCEnd where
  | done
  | stopped (e : Stop)
  | running
  deriving DecidableEq

/-- The loop over the runs: the records stored (the results are saved after every run, so those before a failure
remain), and how it ended. -/
def mcLoop (M : MCVariant) (S : MCSetup) (fuel : ℕ) : MCState → List MCSample → List MCRecord × MCEnd
  | _, [] => ([], .done)
  | s, x :: l =>
    match mcRun M S fuel s x with
    | none => ([], .running)
    | some (.error e) => ([], .stopped e)
    | some (.ok (s', r)) => let t := mcLoop M S fuel s' l; (r :: t.1, t.2)

/-- The vehicle after a completed simulation (vehicle.py:5776-5838: every run works on `self`); `none` if it did not
complete. -/
def mcAfter (M : MCVariant) (S : MCSetup) (fuel : ℕ) : MCState → List MCSample → Option MCState
  | s, [] => some s
  | s, x :: l =>
    match mcRun M S fuel s x with
    | some (.ok (s', _)) => mcAfter M S fuel s' l
    | _ => none

/-- `max(self.heatload_full)` (vehicle.py:5812, 7525, 7746). -/
def heatOfSegments (H : Hist) : Py ℝ := pyMax H.heatload

/-- `max(cumulative_trapezoid(q_stag_total_full, t_min_full*60, initial=0))/1e3` (vehicle.py:5916, 7631). -/
def heatOfFlight (mode : ScipyMode) (H : Hist) : Py ℝ := do
  let l ← cumTrapz mode (List.zip (H.t.map (· * 60)) H.qStagTotal) 0
  let m ← pyMax l
  return m / 1e3

namespace Vehicle

/-- `runMonteCarlo` (vehicle.py:5742-5840). -/
def runMonteCarlo (G : GuideParams) (mode : ScipyMode) (I : Integrator) (timeStep dt maxTime : ℝ) : MCVariant where
  fly := fun fuel V h => propogateGuidedEntry G mode I fuel V h timeStep dt maxTime
  heat := heatOfSegments

/-- `runMonteCarlo2` (vehicle.py:5842-5950). -/
def runMonteCarlo2 (G : GuideParams) (mode : ScipyMode) (I I' : Integrator) (timeStep dt maxTime : ℝ) : MCVariant where
  fly := fun fuel V h => propogateGuidedEntry2 G mode I I' fuel V h timeStep dt maxTime
  heat := heatOfFlight mode

/-- `runMonteCarloD` (vehicle.py:7448-7554) and `runMonteCarloD_Earth` (7669-7776), which differ in the file reader
only. -/
def runMonteCarloD (G : GuideParams) (mode : ScipyMode) (I : Integrator) (timeStepEntry timeStepExit dt maxTime : ℝ) :
    MCVariant where
  fly := fun fuel V h => propogateGuidedEntryD G mode I fuel V h timeStepEntry timeStepExit dt maxTime
  heat := heatOfSegments

/-- `runMonteCarloD2` (vehicle.py:7556-7666). -/
def runMonteCarloD2 (G : GuideParams) (mode : ScipyMode) (I' : Integrator) (timeStepEntry timeStepExit dt maxTime : ℝ) :
    MCVariant where
  fly := fun fuel V h => propogateGuidedEntryD2 G mode I' fuel V h timeStepEntry timeStepExit dt maxTime
  heat := heatOfFlight mode

end Vehicle

end AMAT
