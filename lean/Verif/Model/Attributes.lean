import Verif.Model.Trajectory

/-
Attributes that are read but may not exist, in `/repo/AMAT/vehicle.py`: `self.CPCV` in `computeStagTemp` (2243-2268) and
`np.float` in `computeMachScalar` (2219-2241), which `D` (859-889) and `Dbar` (956-985) call for a vehicle with a
user-defined drag curve.
-/

noncomputable section

namespace AMAT

/-- The attributes that some method of the class `Vehicle` assigns on `self` (all assignments in vehicle.py:14-7776; the
class body has no class attributes but the flags of an event function). -/
def Vehicle.assigned : List String :=
  ["A", "Abar", "CD", "CD1", "CDMach", "CD_vec", "CL", "EFPA_1sigma_value", "Ghdot", "Gq", "LD", "LD_1sigma_value",
   "NMONTE", "NPOS", "RN", "acc_drag_array", "acc_drag_g", "acc_net_g", "acc_net_g_eg", "acc_net_g_en",
   "acc_net_g_full", "acc_step_array", "alpha", "apoapsis_perc_error", "apoapsis_raise_DV", "atmSigmaFactor",
   "atmfiles", "beta", "beta1", "beta1_1sigma_value", "betaRatio", "delta_deg_array", "densAvgCol", "densHighCol",
   "densLowCol", "densSD_percCol", "densTotalCol", "density_mes_array", "density_mes_int", "drange0_km",
   "drange0_km_ref", "drange_km_eg", "drange_km_en", "drange_km_full", "drange_kmc", "drangec", "dt",
   "dyn_pres_atm", "dyn_pres_atm_eg", "dyn_pres_atm_en", "dyn_pres_atm_full", "exitflag", "gamma0_deg",
   "gamma0_deg_ref", "gamma_deg_eg", "gamma_deg_en", "gamma_deg_full", "gamma_degc", "gammac", "h0_km",
   "h0_km_ref", "h_current_km", "h_km_eg", "h_km_en", "h_km_full", "h_kmc", "h_step_array", "h_switch",
   "hddot_array", "hddoti", "hdot_array", "hdot_threshold", "hdotref_array", "heatLoad0", "heatLoad0_ref",
   "heatload", "heatload_eg", "heatload_en", "heatload_full", "heightCol", "heightInKmFlag", "hp", "hp_km",
   "index", "lowAlt_km", "mass", "maxRollRate", "maxTimeSecs", "mbar", "minAlt", "nominalEFPA", "nominalLD",
   "nominalbeta1", "numPoints_lowAlt", "p_switch", "periapsis_raise_DV", "phi0_deg", "phi0_deg_ref", "phi_deg_eg",
   "phi_deg_en", "phi_deg_full", "phi_degc", "phic", "planetObj", "psi0_deg", "psi0_deg_ref", "psi_deg_eg",
   "psi_deg_en", "psi_deg_full", "psi_degc", "psic", "q_array", "q_stag_con", "q_stag_rad", "q_stag_total",
   "q_stag_total_eg", "q_stag_total_en", "q_stag_total_full", "qref_array", "rc", "rp", "stag_pres_atm",
   "stag_pres_atm_eg", "stag_pres_atm_en", "stag_pres_atm_full", "t_min_eg", "t_min_en", "t_min_full", "t_minc",
   "t_step_array", "t_switch", "target_apo_km", "target_apo_km_tol", "target_peri_km", "tc", "terminal_E",
   "terminal_a", "terminal_apoapsis", "terminal_e", "terminal_g", "terminal_h", "terminal_periapsis", "terminal_r",
   "terminal_v", "theta0_deg", "theta0_deg_ref", "theta_deg_eg", "theta_deg_en", "theta_deg_full", "theta_degc",
   "thetac", "timeStep", "timeStepEntry", "timeStepExit", "tol", "userDefinedCDMach", "v0_kms", "v0_kms_ref",
   "v_current_kms", "v_kms_eg", "v_kms_en", "v_kms_full", "v_kmsc", "v_switch", "v_switch_kms", "vc",
   "vehicleCopy", "vehicleID"]

/-- The attributes of a vehicle object, by name; `none` is an attribute that does not exist.  Only numbers matter here. -/
abbrev Attrs := String → Option ℝ

/-- The attributes a vehicle object can have after its construction and any sequence of method calls: each call assigns
attributes of the list above.  (Attributes assigned from outside are not considered.) -/
inductive Vehicle.Reachable : Attrs → Prop
  | new : Vehicle.Reachable (fun _ => none)
  | assign (a : Attrs) (name : String) (x : Option ℝ) (h : name ∈ Vehicle.assigned) (ha : Vehicle.Reachable a) :
      Vehicle.Reachable (fun n => if n = name then x else a n)

/-- `mach[:] = vc[:]/sonic_spd[:]` (vehicle.py:2215, 2264): arrays of different lengths do not fit (unless one of them has
a single element; that case is treated as fitting). -/
def shapesFit {α β : Type} (a : List α) (b : List β) : Py Unit :=
  if a.length = b.length ∨ b.length = 1 then .ok () else .error .valueError

/-- `computeMach` (vehicle.py:2193-2217); the pressures and temperatures it also looks up are not used.  A speed array
with a single element is broadcast. -/
def Vehicle.computeMach (V : Vehicle) (rc vc : List ℝ) : Py (List ℝ) := do
  shapesFit rc vc
  let vs := if vc.length = 1 then List.replicate rc.length (vc.headD 0) else vc
  return List.zipWith (fun r v => v / V.planet.sonicVec V.atm r) rc vs

/-- `computeStagTemp` (vehicle.py:2243-2268) on a vehicle with attributes `a` and record `V`. -/
def Vehicle.computeStagTemp (V : Vehicle) (a : Attrs) (rc vc : List ℝ) : Py (List ℝ) := do
  shapesFit rc vc
  let mach := List.zipWith (fun r v => v / V.planet.sonicVec V.atm r) rc vc
  let g ← getAttr (a "CPCV")
  return List.zipWith (fun r m => V.planet.temperatureVec V.atm r * (1 + 0.5 * (g - 1) * m ^ 2)) rc mach

/-- NumPy versions: `np.float` was removed in version 1.24; `/repo/uv.lock` pins 2.4.2. -/
inductive NumpyMode where
  | before124
  | since124
  deriving DecidableEq

/-- `np.float(x)`. -/
def npFloat : NumpyMode → ℝ → Py ℝ
  | .before124, x => .ok x
  | .since124, _ => .error .attributeError

namespace Vehicle

/-- `computeMachScalar` (vehicle.py:2219-2241). -/
def machScalarPy (np : NumpyMode) (V : Vehicle) (r v : ℝ) : Py ℝ := do
  let _ ← npFloat np (V.atm.pressureInt (r - V.planet.RP))
  let _ ← npFloat np (V.atm.tempInt (r - V.planet.RP))
  let sonic ← npFloat np (V.atm.sonicInt (r - V.planet.RP))
  return v / sonic

/-- vehicle.py:882-886: the drag coefficient. -/
def CD1Py (np : NumpyMode) (V : Vehicle) (r v : ℝ) : Py ℝ :=
  if V.userDefinedCDMach then (V.machScalarPy np r v).map V.CDMach else .ok V.CD

/-- `D` (vehicle.py:859-889). -/
def DPy (np : NumpyMode) (V : Vehicle) (r theta phi v : ℝ) : Py ℝ := do
  let cd ← V.CD1Py np r v
  return 0.5 * V.planet.rho V.atm r theta phi * v ^ 2 * V.A * cd

/-- `Dbar` (vehicle.py:956-985). -/
def DbarPy (np : NumpyMode) (V : Vehicle) (rbar theta phi vbar : ℝ) : Py ℝ := do
  let cd ← V.CD1Py np (rbar * V.planet.RP) (vbar * V.planet.Vref)
  return 0.5 * V.planet.rhobar V.atm rbar theta phi * vbar ^ 2 * V.Abar * cd

/-- `EOM` (vehicle.py:1587-1628), which evaluates `Dbar`; the other terms raise nothing. -/
def EOMPy (np : NumpyMode) (V : Vehicle) (y : FState) (t delta : ℝ) : Py FState := do
  let _ ← V.DbarPy np y.r y.theta y.phi y.v
  return V.EOM y t delta

/-- `propogateEntry` (vehicle.py:2430-2515) with the exceptions of the equations of motion, which are evaluated at the
entry state first.  (Whether an evaluation raises does not depend on the state.) -/
def propogateEntryPy (np : NumpyMode) (V : Vehicle) (mode : ScipyMode) (I : Integrator) (tSec dt deltaDeg : ℝ) :
    Py PropOut := do
  let _ ← V.EOMPy np (V.planet.nonDimState (entryState V.planet V.init)) 0 (deltaDeg * Real.pi / 180.0)
  V.propogateEntry mode I tSec dt deltaDeg

end Vehicle

end AMAT
