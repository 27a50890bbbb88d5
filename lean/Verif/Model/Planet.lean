import Mathlib.Analysis.SpecialFunctions.Trigonometric.Basic
import Verif.Model.Numpy

/-
Model of `/repo/AMAT/planet.py`, class `Planet`.
-/

noncomputable section

open Classical

namespace AMAT

/-- The attributes of a `Planet` object (planet.py:80-245).  `hLow` is `none` when the
constructor never assigns `self.h_low` (JUPITER and SATURN).  The interpolants
(`density_int`, …) are modelled separately as functions because `loadAtmosphereModel`
(planet.py:247-308) builds them from a user file, by default with cubic splines. -/
structure Planet where
  ID : String
  RP : ℝ
  OMEGA : ℝ
  GM : ℝ
  rho0 : ℝ
  CPCV : ℝ
  J2 : ℝ
  J3 : ℝ
  a0 : ℝ
  d0 : ℝ
  hThres : ℝ
  hSkip : ℝ
  hTrap : ℝ
  hLow : Option ℝ
  Vref : ℝ
  tau : ℝ
  OMEGAbar : ℝ
  EARTHG : ℝ

/-- planet.py:230-234: the derived reference scales, computed after the body constants. -/
def Planet.withScales (ID : String) (RP OMEGA GM rho0 CPCV J2 J3 a0 d0 hThres hSkip hTrap : ℝ)
    (hLow : Option ℝ) : Planet :=
  let Vref := Real.sqrt (GM / RP)
  let tau := RP / Vref
  { ID := ID, RP := RP, OMEGA := OMEGA, GM := GM, rho0 := rho0, CPCV := CPCV, J2 := J2, J3 := J3,
    a0 := a0, d0 := d0, hThres := hThres, hSkip := hSkip, hTrap := hTrap, hLow := hLow,
    Vref := Vref, tau := tau, OMEGAbar := OMEGA * tau, EARTHG := 9.80665 }

/-- `Planet.__init__` (planet.py:80-245). -/
def Planet.init (planetID : String) : Py Planet :=
  if planetID = "VENUS" then          -- planet.py:93-108
    .ok (Planet.withScales "VENUS" 6051.8e3 (-2.99237e-7) 3.248599e14 64.790 1.289 4.458e-6 0
      (272.76 * Real.pi / 180) (67.16 * Real.pi / 180) 180000 180000 10000 (some 60e3))
  else if planetID = "EARTH" then     -- planet.py:110-125
    .ok (Planet.withScales "EARTH" 6371e3 7.272205e-5 3.986004e14 1.2250 1.4 1082.6e-6 (-2.532e-6)
      (0 * Real.pi / 180) (90 * Real.pi / 180) 120e3 120e3 10e3 (some 50e3))
  else if planetID = "MARS" then      -- planet.py:127-142
    .ok (Planet.withScales "MARS" 3389.5e3 7.088253e-5 4.282837e13 0.0200 1.289 1960.45e-6 31.5e-6
      (317.68143 * Real.pi / 180) (52.88650 * Real.pi / 180) 120e3 120e3 10e3 (some 50e3))
  else if planetID = "JUPITER" then   -- planet.py:144-158 (no h_low)
    .ok (Planet.withScales "JUPITER" 69911e3 1.758518e-4 1.26686534e17 0.16288 1.4348 14736e-6 0
      (268.056595 * Real.pi / 180) (64.495303 * Real.pi / 180) 1000e3 1000e3 50e3 none)
  else if planetID = "SATURN" then    -- planet.py:160-173 (no h_low)
    .ok (Planet.withScales "SATURN" 58232e3 1.6379e-4 3.7931187e16 0.19847 1.4348 16298e-6 0
      (40.589 * Real.pi / 180) (83.537 * Real.pi / 180) 1000e3 1000e3 50e3 none)
  else if planetID = "TITAN" then     -- planet.py:175-190
    .ok (Planet.withScales "TITAN" 2575e3 4.5451280e-6 8.978e12 5.43500 1.4 31.808e-6 (-1.880e-6)
      (39.4827 * Real.pi / 180) (83.4279 * Real.pi / 180) 1000e3 1000e3 30e3 (some 300e3))
  else if planetID = "URANUS" then    -- planet.py:192-206
    .ok (Planet.withScales "URANUS" 25559e3 (-1.01237e-4) 5.793939e15 0.3788 1.450 3343.3e-6 0
      (257.311 * Real.pi / 180) (-15.175 * Real.pi / 180) 1500e3 1500e3 10e3 (some 10e3))
  else if planetID = "NEPTUNE" then   -- planet.py:208-222
    .ok (Planet.withScales "NEPTUNE" 24622e3 1.083385e-4 6.8365299e15 0.44021 1.450 3411e-6 0
      (299.36 * Real.pi / 180) (43.36 * Real.pi / 180) 1000e3 1000e3 10e3 (some 100e3))
  else .error .valueError             -- planet.py:224-227

/-- The four interpolants installed by `loadAtmosphereModel` (planet.py:305-308).  They are
arbitrary functions of altitude here; `Model/Cubic.lean` says which functions they are after loading a
file with the default interpolation. -/
structure Atmosphere where
  densityInt : ℝ → ℝ
  pressureInt : ℝ → ℝ
  tempInt : ℝ → ℝ
  sonicInt : ℝ → ℝ

/-- `Planet.density` (planet.py:310-344).  The python chain is
`if 0 <= h <= h_thres … elif h > h_thres … elif h < 0 …`; on real numbers the three tests are
exhaustive, so the implicit `return None` (reachable only for NaN) does not appear. -/
def Planet.density (P : Planet) (atm : Atmosphere) (h : ℝ) : ℝ :=
  if 0 ≤ h ∧ h ≤ P.hThres then atm.densityInt h
  else if h > P.hThres then 0
  else P.rho0

/-- `Planet.rho` (planet.py:429-453); longitude and latitude are ignored by the source. -/
def Planet.rho (P : Planet) (atm : Atmosphere) (r _theta _phi : ℝ) : ℝ :=
  P.density atm (r - P.RP)

/-- One entry of `Planet.densityvectorized` (planet.py:387-406). -/
def Planet.densityVec (_P : Planet) (atm : Atmosphere) (h : ℝ) : ℝ := atm.densityInt h

/-- One entry of `Planet.rhovectorized` (planet.py:455-476). -/
def Planet.rhoVec (P : Planet) (atm : Atmosphere) (r : ℝ) : ℝ := atm.densityInt (r - P.RP)

/-- One entry of `Planet.pressurevectorized` (planet.py:478-498). -/
def Planet.pressureVec (P : Planet) (atm : Atmosphere) (r : ℝ) : ℝ := atm.pressureInt (r - P.RP)

/-- One entry of `Planet.temperaturevectorized` (planet.py:500-520). -/
def Planet.temperatureVec (P : Planet) (atm : Atmosphere) (r : ℝ) : ℝ := atm.tempInt (r - P.RP)

/-- One entry of `Planet.sonicvectorized` (planet.py:522-542). -/
def Planet.sonicVec (P : Planet) (atm : Atmosphere) (r : ℝ) : ℝ := atm.sonicInt (r - P.RP)

/-- `Planet.rho2` (planet.py:561-584). -/
def Planet.rho2 (P : Planet) (atm : Atmosphere) (rbar theta phi : ℝ) : ℝ :=
  P.rho atm (rbar * P.RP) theta phi

/-- `Planet.rhobar` (planet.py:586-608). -/
def Planet.rhobar (P : Planet) (atm : Atmosphere) (rbar theta phi : ℝ) : ℝ :=
  P.rho2 atm rbar theta phi / P.rho0

/-- `Planet.computeR` (planet.py:685-701). -/
def Planet.computeR (P : Planet) (h : ℝ) : ℝ := P.RP + h

/-- `Planet.computeH` (planet.py:703-719). -/
def Planet.computeH (P : Planet) (r : ℝ) : ℝ := r - P.RP

/-- A flight state `(r, θ, φ, v, ψ, γ, drange)`; used both for the dimensional and for the
dimensionless states passed around by planet.py and vehicle.py. -/
@[ext] structure FState where
  r : ℝ
  theta : ℝ
  phi : ℝ
  v : ℝ
  psi : ℝ
  gamma : ℝ
  drange : ℝ

/-- `Planet.nonDimState` (planet.py:721-765). -/
def Planet.nonDimState (P : Planet) (s : FState) : FState :=
  { r := s.r / P.RP, theta := s.theta, phi := s.phi, v := s.v / P.Vref, psi := s.psi,
    gamma := s.gamma, drange := s.drange / P.RP }

/-- `Planet.dimensionalize` (planet.py:767-814), one sample; the first component is time. -/
def Planet.dimensionalize (P : Planet) (tbar : ℝ) (s : FState) : ℝ × FState :=
  (P.tau * tbar,
   { r := s.r * P.RP, theta := s.theta, phi := s.phi, v := s.v * P.Vref, psi := s.psi,
     gamma := s.gamma, drange := s.drange * P.RP })

/-! ### Monte Carlo atmosphere files -/

/-- One row of a Monte Carlo density file after `loadMonteCarloDensityFile2/3`. -/
@[ext] structure DensRow where
  height : ℝ
  low : ℝ
  avg : ℝ
  high : ℝ
  pert : ℝ

/-- `loadMonteCarloDensityFile2` (planet.py:847-903), one row: `height`, `low`, `avg`, `high`
and `total` columns; heights in km are converted when the flag is set. -/
def loadMC2 (km : Bool) (height low avg high total : ℝ) : DensRow :=
  { height := if km then height * 1e3 else height, low := low, avg := avg, high := high,
    pert := total - avg }

/-- `loadMonteCarloDensityFile3` (planet.py:905-958), one row: low and high are built from a
standard deviation given in percent. -/
def loadMC3 (km : Bool) (height avg sdPerc total : ℝ) : DensRow :=
  { height := if km then height * 1e3 else height, low := avg - avg * sdPerc * 0.01, avg := avg,
    high := avg + avg * sdPerc * 0.01, pert := total - avg }

/-- `pSigmaFunc` (planet.py:960-979). -/
def pSigmaFunc (x : ℝ) : ℝ := if 0 ≤ x then 1 else 0

/-- `nSigmaFunc` (planet.py:981-1000). -/
def nSigmaFunc (x : ℝ) : ℝ := if x < 0 then 1 else 0

/-- The slice `[int((i-1)*NPOS) : int(i*NPOS)]` (planet.py:1036-1043, 1080-1086) for a
profile number `i ≥ 1`. -/
def profileSlice {α : Type} (rows : List α) (NPOS i : ℕ) : List α :=
  (rows.take (i * NPOS)).drop ((i - 1) * NPOS)

/-- The density of one row in `loadAtmosphereModel5` (planet.py:1036-1043). -/
def mcDensity5 (row : DensRow) (sigma : ℝ) : ℝ :=
  row.avg + (row.high - row.avg) * pSigmaFunc sigma * sigma
    + (row.avg - row.low) * nSigmaFunc sigma * sigma + row.pert

/-- The density of one row in `loadAtmosphereModel6` (planet.py:1080-1086): no perturbation. -/
def mcDensity6 (row : DensRow) (sigma : ℝ) : ℝ :=
  row.avg + (row.high - row.avg) * pSigmaFunc sigma * sigma
    + (row.avg - row.low) * nSigmaFunc sigma * sigma

/-- `loadAtmosphereModel5` (planet.py:1002-1046): slice, scale, linear interpolation with
fill value 0. -/
def loadAtmosphereModel5 (rows : List DensRow) (sigma : ℝ) (NPOS i : ℕ) : Py (ℝ → ℝ) :=
  interp1d ((profileSlice rows NPOS i).map (fun row => (row.height, mcDensity5 row sigma))) 0 0

/-- `loadAtmosphereModel6` (planet.py:1048-1089). -/
def loadAtmosphereModel6 (rows : List DensRow) (sigma : ℝ) (NPOS i : ℕ) : Py (ℝ → ℝ) :=
  interp1d ((profileSlice rows NPOS i).map (fun row => (row.height, mcDensity6 row sigma))) 0 0

/-- The grid point `np.linspace(0, h_skip, n)[j]` (planet.py:836). -/
def Planet.scaleHeightGrid (P : Planet) : List ℝ := linspace0 P.hSkip ⌊P.hSkip / 1000⌋₊

/-- `Planet.scaleHeight` (planet.py:816-845).  The argument `density_int` is
unused, as in the source (which reads `self.density_int`).  `int(h/1000.0)` is the floor
for the non-negative altitudes considered.  An `h` beyond the grid leaves an empty slice, on
which `cumulative_trapezoid` raises.  `none` is the infinity or NaN of a division by zero. -/
def Planet.scaleHeight (P : Planet) (atm : Atmosphere) (mode : ScipyMode) (h : ℝ) (_densityInt : ℝ → ℝ) :
    Py (Option ℝ) := do
  let grid := P.scaleHeightGrid.drop ⌊h / 1000⌋₊
  let integ ← cumTrapz mode (grid.map (fun x => (x, atm.densityInt x))) 0
  let den := P.density atm h - P.density atm P.hSkip
  return if den = 0 then none else some (integ.getLastD 0 / den)

end AMAT
