import Mathlib.Analysis.SpecialFunctions.Trigonometric.Basic
import Verif.Model.Planet

/-
Model of the aerodynamics and equations of motion in `/repo/AMAT/vehicle.py` (lines 317-1671).
-/

noncomputable section

open Classical

namespace AMAT

/-- The entry state set by `Vehicle.setInitialState`, vehicle.py:516-563 (units as in the source). -/
@[ext] structure InitState where
  h0Km : ℝ
  theta0Deg : ℝ
  phi0Deg : ℝ
  v0Kms : ℝ
  psi0Deg : ℝ
  gamma0Deg : ℝ
  drange0Km : ℝ
  heatLoad0 : ℝ

/-- The attributes of `Vehicle` read by the modelled code.  `planetObj` is the pair `planet`, `atm` (body
constants and loaded atmosphere). `CDMach` is the user function of vehicle.py:501-513; `cdOfMach` models the
flag `userDefinedCDMach`.  Simplification: `init`/`initRef` hold the values stored by `setInitialState`
(they are `None` before that call). -/
structure Vehicle where
  mass : ℝ
  beta : ℝ
  LD : ℝ
  A : ℝ
  alpha : ℝ
  RN : ℝ
  planet : Planet
  atm : Atmosphere
  userDefinedCDMach : Bool
  CDMach : ℝ → ℝ
  Abar : ℝ
  mbar : ℝ
  CD : ℝ
  CL : ℝ
  init : InitState
  initRef : InitState

/-- vehicle.py:317-359 `Vehicle.__init__` (the derived quantities of lines 356-359). -/
def Vehicle.mk' (mass beta LD A alpha RN : ℝ) (planet : Planet) (atm : Atmosphere)
    (userDefinedCDMach : Bool) (CDMach : ℝ → ℝ) (st : InitState) : Vehicle :=
  let CD := mass / (beta * A)
  { mass, beta, LD, A, alpha, RN, planet, atm, userDefinedCDMach, CDMach
    Abar := A / (mass / (planet.rho0 * planet.RP))
    mbar := mass / mass
    CD := CD
    CL := LD * CD
    init := st
    initRef := st }

namespace Vehicle

variable (V : Vehicle)

/-- vehicle.py:516-563 `setInitialState`. -/
def setInitialState (s : InitState) : Vehicle := { V with init := s, initRef := s }

/-- vehicle.py:2219-2241 `computeMachScalar`.  Simplification: `np.float` (removed from NumPy ≥ 1.24) is
treated as the identity; see C59 for the consequence of its absence. -/
def machScalar (r v : ℝ) : ℝ := v / V.atm.sonicInt (r - V.planet.RP)

/-- vehicle.py:802-826 `L`. -/
def L (r theta phi v : ℝ) : ℝ := 0.5 * V.planet.rho V.atm r theta phi * v ^ 2 * V.A * V.CL

/-- vehicle.py:828-857 `Lvectorized`, one element. -/
def Lvec (r v : ℝ) : ℝ := 0.5 * V.planet.rhoVec V.atm r * v ^ 2 * V.A * V.CL

/-- vehicle.py:882-886, the drag coefficient selected in `D`. -/
def CD1 (r v : ℝ) : ℝ := if V.userDefinedCDMach then V.CDMach (V.machScalar r v) else V.CD

/-- vehicle.py:859-889 `D`. -/
def D (r theta phi v : ℝ) : ℝ := 0.5 * V.planet.rho V.atm r theta phi * v ^ 2 * V.A * V.CD1 r v

/-- vehicle.py:891-927 `Dvectorized`, one element (`computeMach`, lines 2193-2217, divides by the sonic
speed of the same table). -/
def Dvec (r v : ℝ) : ℝ :=
  0.5 * V.planet.rhoVec V.atm r * v ^ 2 * V.A *
    (if V.userDefinedCDMach then V.CDMach (v / V.planet.sonicVec V.atm r) else V.CD)

/-- vehicle.py:929-954 `Lbar`. -/
def Lbar (rbar theta phi vbar : ℝ) : ℝ :=
  0.5 * V.planet.rhobar V.atm rbar theta phi * vbar ^ 2 * V.Abar * V.CL

/-- vehicle.py:956-985 `Dbar`. -/
def Dbar (rbar theta phi vbar : ℝ) : ℝ :=
  0.5 * V.planet.rhobar V.atm rbar theta phi * vbar ^ 2 * V.Abar *
    (if V.userDefinedCDMach then V.CDMach (V.machScalar (rbar * V.planet.RP) (vbar * V.planet.Vref))
     else V.CD)

/-- vehicle.py:987-1018 `a_s` (the thrust term is the literal `0.0*np.cos(alpha)`). -/
def a_s (r theta phi v _delta : ℝ) : ℝ := 0.0 * Real.cos V.alpha - V.D r theta phi v / V.mass

/-- vehicle.py:1020-1050 `a_svectorized`, one element. -/
def a_svec (r v : ℝ) : ℝ := 0 * Real.cos V.alpha - V.Dvec r v / V.mass

/-- vehicle.py:1052-1083 `a_n`. -/
def a_n (r theta phi v delta : ℝ) : ℝ :=
  (V.L r theta phi v + 0.0 * Real.sin V.alpha) * Real.cos delta / V.mass

/-- vehicle.py:1085-1114 `a_nvectorized`, one element. -/
def a_nvec (r v delta : ℝ) : ℝ := (V.Lvec r v + 0 * Real.sin V.alpha) * Real.cos delta / V.mass

/-- vehicle.py:1116-1148 `a_w`. -/
def a_w (r theta phi v delta : ℝ) : ℝ :=
  (V.L r theta phi v + 0.0 * Real.sin V.alpha) * Real.sin delta / V.mass

/-- vehicle.py:1150-1179 `a_wvectorized`, one element. -/
def a_wvec (r v delta : ℝ) : ℝ := (V.Lvec r v + 0 * Real.sin V.alpha) * Real.sin delta / V.mass

/-- vehicle.py:1181-1212 `a_sbar`. -/
def a_sbar (rbar theta phi vbar _delta : ℝ) : ℝ :=
  (0.0 * Real.cos V.alpha - V.Dbar rbar theta phi vbar) / V.mbar

/-- vehicle.py:1214-1245 `a_nbar`. -/
def a_nbar (rbar theta phi vbar delta : ℝ) : ℝ :=
  (V.Lbar rbar theta phi vbar + 0.0 * Real.sin V.alpha) * Real.cos delta / V.mbar

/-- vehicle.py:1247-1278 `a_wbar`. -/
def a_wbar (rbar theta phi vbar delta : ℝ) : ℝ :=
  (V.Lbar rbar theta phi vbar + 0.0 * Real.sin V.alpha) * Real.sin delta / V.mbar

/-- vehicle.py:1280-1308 `cfvbar`. -/
def cfvbar (rbar phi _vbar psi gamma : ℝ) : ℝ :=
  V.planet.OMEGAbar ^ 2 * rbar * Real.cos phi *
    (Real.sin gamma * Real.cos phi - Real.cos gamma * Real.sin phi * Real.sin psi)

/-- vehicle.py:1310-1338 `cfpsibar`. -/
def cfpsibar (rbar phi vbar psi gamma : ℝ) : ℝ :=
  (-1.0 * V.planet.OMEGAbar ^ 2 * rbar / (vbar * (Real.cos gamma + 1e-2))) * Real.sin phi *
    Real.cos phi * Real.cos psi

/-- vehicle.py:1340-1368 `cfgammabar`. -/
def cfgammabar (rbar phi vbar psi gamma : ℝ) : ℝ :=
  (V.planet.OMEGAbar ^ 2 * rbar / vbar) * Real.cos phi *
    (Real.cos gamma * Real.cos phi + Real.sin gamma * Real.sin phi * Real.sin psi)

/-- vehicle.py:1370-1395 `copsibar`. -/
def copsibar (_rbar phi _vbar psi gamma : ℝ) : ℝ :=
  2.0 * V.planet.OMEGAbar *
    ((Real.sin gamma / (Real.cos gamma + 1e-2)) * Real.cos phi * Real.sin psi - Real.sin phi)

/-- vehicle.py:1397-1422 `cogammabar`. -/
def cogammabar (_rbar phi _vbar psi _gamma : ℝ) : ℝ :=
  2.0 * V.planet.OMEGAbar * Real.cos phi * Real.cos psi

/-- vehicle.py:1424-1449 `grbar`. -/
def grbar (rbar phi : ℝ) : ℝ :=
  let term1 := -1.0 / rbar ^ 2
  let term2 := (1.5 * V.planet.J2 / rbar ^ 4) * (3.0 * Real.sin phi * Real.sin phi - 1.0)
  let term3 := (2.0 * V.planet.J3 / rbar ^ 5) * (5.0 * Real.sin phi ^ 3 - 3.0 * Real.sin phi)
  term1 + term2 + term3

/-- vehicle.py:1451-1472 `gthetabar`. -/
def gthetabar (_rbar _phi : ℝ) : ℝ := 0.0

/-- vehicle.py:1474-1497 `gphibar`. -/
def gphibar (rbar phi : ℝ) : ℝ :=
  let term1 := (-3.0 * V.planet.J2 / rbar ^ 4) * Real.sin phi * Real.cos phi
  let term2 := (1.5 * V.planet.J3 / rbar ^ 5) * Real.cos phi *
    (1.0 - 5.0 * Real.sin phi * Real.sin phi)
  term1 + term2

/-- vehicle.py:1499-1524 `gnbar`. -/
def gnbar (rbar phi gamma psi : ℝ) : ℝ :=
  let term1 := Real.cos gamma * V.grbar rbar phi
  let term2 := -1.0 * Real.sin gamma * Real.cos psi * gthetabar rbar phi
  let term3 := -1.0 * Real.sin gamma * Real.sin psi * V.gphibar rbar phi
  term1 + term2 + term3

/-- vehicle.py:1526-1552 `gsbar`. -/
def gsbar (rbar phi gamma psi : ℝ) : ℝ :=
  let term1 := Real.sin gamma * V.grbar rbar phi
  let term2 := Real.cos gamma * Real.cos psi * gthetabar rbar phi
  let term3 := Real.cos gamma * Real.sin psi * V.gphibar rbar phi
  term1 + term2 + term3

/-- vehicle.py:1554-1579 `gwbar`. -/
def gwbar (rbar phi _gamma psi : ℝ) : ℝ :=
  let term1 := -1.0 * Real.sin psi * gthetabar rbar phi
  let term2 := Real.cos psi * V.gphibar rbar phi
  term1 + term2

/-- vehicle.py:1587-1628 `EOM(y, t, delta)`. -/
def EOM (y : FState) (_t delta : ℝ) : FState :=
  { r := y.v * Real.sin y.gamma
    theta := (y.v * Real.cos y.gamma * Real.cos y.psi) / (y.r * Real.cos y.phi)
    phi := (y.v * Real.cos y.gamma * Real.sin y.psi) / y.r
    v := V.a_sbar y.r y.theta y.phi y.v delta + V.gsbar y.r y.phi y.gamma y.psi
      + V.cfvbar y.r y.phi y.v y.psi y.gamma
    psi := (V.a_wbar y.r y.theta y.phi y.v delta + V.gwbar y.r y.phi y.gamma y.psi)
        / (y.v * (Real.cos y.gamma + 1e-2))
      - (1.0 * y.v / y.r) * Real.cos y.gamma * Real.cos y.psi * Real.tan y.phi
      + V.cfpsibar y.r y.phi y.v y.psi y.gamma
      + V.copsibar y.r y.phi y.v y.psi y.gamma
    gamma := (V.a_nbar y.r y.theta y.phi y.v delta + V.gnbar y.r y.phi y.gamma y.psi) / y.v
      + (y.v / y.r) * Real.cos y.gamma
      + V.cfgammabar y.r y.phi y.v y.psi y.gamma
      + V.cogammabar y.r y.phi y.v y.psi y.gamma
    drange := y.v * Real.cos y.gamma }

/-- vehicle.py:1630-1671 `EOM2(t, y, delta)`, transcribed separately. -/
def EOM2 (_t : ℝ) (y : FState) (delta : ℝ) : FState :=
  { r := y.v * Real.sin y.gamma
    theta := (y.v * Real.cos y.gamma * Real.cos y.psi) / (y.r * Real.cos y.phi)
    phi := (y.v * Real.cos y.gamma * Real.sin y.psi) / y.r
    v := V.a_sbar y.r y.theta y.phi y.v delta + V.gsbar y.r y.phi y.gamma y.psi
      + V.cfvbar y.r y.phi y.v y.psi y.gamma
    psi := (V.a_wbar y.r y.theta y.phi y.v delta + V.gwbar y.r y.phi y.gamma y.psi)
        / (y.v * (Real.cos y.gamma + 1e-2))
      - (1.0 * y.v / y.r) * Real.cos y.gamma * Real.cos y.psi * Real.tan y.phi
      + V.cfpsibar y.r y.phi y.v y.psi y.gamma
      + V.copsibar y.r y.phi y.v y.psi y.gamma
    gamma := (V.a_nbar y.r y.theta y.phi y.v delta + V.gnbar y.r y.phi y.gamma y.psi) / y.v
      + (y.v / y.r) * Real.cos y.gamma
      + V.cfgammabar y.r y.phi y.v y.psi y.gamma
      + V.cogammabar y.r y.phi y.v y.psi y.gamma
    drange := y.v * Real.cos y.gamma }

end Vehicle

end AMAT
