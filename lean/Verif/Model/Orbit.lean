import Mathlib.Analysis.SpecialFunctions.Trigonometric.Inverse
import Verif.Model.Trajectory
import Verif.Spec.Vec3

/-
Orbital elements of a terminal state, capture and target-apoapsis verdicts, manoeuvre costs
(`AMAT/vehicle.py`).

`none` stands for a value that is not a finite number in NumPy: NaN, or the infinity `-GM/(2*0.0)`.
Vectors are the records `V3` with `np.dot`, `np.cross`, `np.linalg.norm` as `V3.dot`, `V3.cross`, `V3.norm`.
-/

noncomputable section

open Classical

namespace AMAT

/-- `np.arccos`: NaN outside `[-1, 1]`. -/
def npArccos (x : ℝ) : Option ℝ := if -1 ≤ x ∧ x ≤ 1 then some (Real.arccos x) else none

/-- `vec / np.linalg.norm(vec)`: NaN entries for the zero vector. -/
def npUnit (a : V3) : Option V3 := if a.norm = 0 then none else some ((1 / a.norm) • a)

namespace Planet

/-- `computeEnergyScalar` (vehicle.py:2338-2359). -/
def energyScalar (P : Planet) (r v : ℝ) : ℝ := -1.0 * P.GM / r + 0.5 * v ^ 2

/-- `computeSemiMajorAxisScalar` (vehicle.py:2361-2379); `none` is the `-inf` NumPy returns for `E = 0.0`. -/
def semiMajorAxisScalar (P : Planet) (E : ℝ) : Option ℝ := if E = 0 then none else some (-1.0 * P.GM / (2 * E))

/-- `computeAngMomScalar` (vehicle.py:2381-2405). -/
def angMomScalar (r v g : ℝ) : ℝ := r * v * Real.cos g

/-- `computeEccScalar` (vehicle.py:2407-2428); `none` is NaN. -/
def eccScalar (P : Planet) (h E : ℝ) : Option ℝ := npSqrt (1.0 + 2 * E * h ^ 2 / P.GM ^ 2)

end Planet

/-- The six terminal values read by the verdict functions (vehicle.py:3150-3156, orbiter.py:271-276). -/
structure Terminal where
  r : ℝ
  v : ℝ
  g : ℝ
  theta : ℝ
  phi : ℝ
  psi : ℝ

namespace Terminal

/-- `v_pr_x, v_pr_y, v_pr_z` (vehicle.py:3159-3168, 4317-4326, 4402-4411, orbiter.py:291-304: the same text four
times). -/
def vPr (s : Terminal) : V3 :=
  ⟨s.v * Real.sin s.g * Real.cos s.phi * Real.cos s.theta +
      s.v * Real.cos s.g * Real.cos s.psi * (-1 * Real.sin s.theta) +
      s.v * Real.cos s.g * Real.sin s.psi * (-1 * Real.sin s.phi * Real.cos s.theta),
    s.v * Real.sin s.g * Real.cos s.phi * Real.sin s.theta +
      s.v * Real.cos s.g * Real.cos s.psi * Real.cos s.theta +
      s.v * Real.cos s.g * Real.sin s.psi * (-1 * Real.sin s.phi * Real.sin s.theta),
    s.v * Real.sin s.g * Real.sin s.phi + s.v * Real.cos s.g * Real.sin s.psi * Real.cos s.phi⟩

/-- `v_ie_x, v_ie_y, v_ie_z` (vehicle.py:3171-3173, 4329-4331, 4414-4416, orbiter.py:308-314). -/
def vIe (P : Planet) (s : Terminal) : V3 :=
  ⟨s.vPr.x + s.r * P.OMEGA * Real.cos s.phi * Real.sin s.theta * (-1.0),
    s.vPr.y + s.r * P.OMEGA * Real.cos s.phi * Real.cos s.theta,
    s.vPr.z⟩

/-- `terminal_r_vec` (vehicle.py:3176-3178, 4335-4337, 4419-4421, orbiter.py:284-285). -/
def rVec (s : Terminal) : V3 :=
  s.r • (⟨Real.cos s.phi * Real.cos s.theta, Real.cos s.phi * Real.sin s.theta, Real.sin s.phi⟩ : V3)

/-- `v_ie_mag` (vehicle.py:3196, 4355, 4439, orbiter.py:317). -/
def vIeMag (P : Planet) (s : Terminal) : ℝ :=
  Real.sqrt ((s.vIe P).x ^ 2 + (s.vIe P).y ^ 2 + (s.vIe P).z ^ 2)

/-- `terminal_fpa_ie_rad` (vehicle.py:3181-3193, 4340-4352, 4424-4436, orbiter.py:288, 320-330). -/
def fpaIe (P : Planet) (s : Terminal) : Option ℝ := do
  let rHat ← npUnit s.rVec
  let vHat ← npUnit (s.vIe P)
  let c ← npArccos (V3.dot rHat vHat)
  let deg := 90.0 - (180 / Real.pi) * c
  return deg * Real.pi / 180.0

/-- `terminal_E`, `terminal_h`, `terminal_a`, `terminal_e` from the inertial state (vehicle.py:3199-3204, 4358-4363,
4442-4447). -/
def elements (P : Planet) (s : Terminal) : Option (ℝ × ℝ) := do
  let fpa ← s.fpaIe P
  let E := P.energyScalar s.r (s.vIeMag P)
  let h := Planet.angMomScalar s.r (s.vIeMag P) fpa
  let a ← P.semiMajorAxisScalar E
  let e ← P.eccScalar h E
  return (a, e)

/-- `compute_ApoapsisAltitudeKm` (vehicle.py:4286-4370). -/
def apoapsisAltitudeKm (P : Planet) (s : Terminal) : Option ℝ := do
  let (a, e) ← s.elements P
  let rp := a * (1.0 + e)
  return (rp - P.RP) / 1.0E3

/-- `compute_PeriapsisAltitudeKm` (vehicle.py:4372-4454). -/
def periapsisAltitudeKm (P : Planet) (s : Terminal) : Option ℝ := do
  let (a, e) ← s.elements P
  let rp := a * (1.0 - e)
  return (rp - P.RP) / 1.0E3

end Terminal

/-- `x >= y` where `x` may be NaN or `-inf`: both compare false. -/
def geOpt (x : Option ℝ) (y : ℝ) : Prop := ∃ z, x = some z ∧ z ≥ y

/-- `a < 0` for a semi-major axis: `none` is `-inf`, which is less than zero. -/
def negAxis (a : Option ℝ) : Prop := a = none ∨ ∃ z, a = some z ∧ z < 0

namespace Planet

/-- vehicle.py:3085-3113: the verdict of `hitsTargetApoapsis` from terminal radius, planet-relative speed and
flight-path angle. -/
def apoapsisVerdict (P : Planet) (r v g targetKm : ℝ) : Py ℤ := do
  let E := P.energyScalar r v
  let h := angMomScalar r v g
  let a := P.semiMajorAxisScalar E
  let e := P.eccScalar h E
  let hpKm := (do let a ← a; let e ← e; return (a * (1.0 + e) - P.RP) / 1.0E3 : Option ℝ)
  let alt := (r - P.RP) / 1000.0
  let ans : ℤ := if geOpt hpKm targetKm ∨ negAxis a then -1 else 1
  let hLow ← getAttr P.hLow
  return if alt < hLow / 1000.0 then 1 else ans

/-- vehicle.py:3159-3226: the verdict of `hitsTargetApoapsis2`, from the inertial terminal state. -/
def apoapsisVerdict2 (P : Planet) (s : Terminal) (targetKm : ℝ) : Py ℤ := do
  let a := P.semiMajorAxisScalar (P.energyScalar s.r (s.vIeMag P))
  let hpKm := s.apoapsisAltitudeKm P
  let alt := (s.r - P.RP) / 1000.0
  let ans : ℤ := if geOpt hpKm targetKm ∨ negAxis a then -1 else 1
  let hLow ← getAttr P.hLow
  return if alt < hLow / 1000.0 then 1 else ans

end Planet

/-- Python list indexing with a non-negative index. -/
def pyIndex {α : Type} (l : List α) (i : ℕ) : Py α :=
  match l[i]? with
  | some x => .ok x
  | none => .error .indexError

namespace PropOut

/-- The reads `self.rc[self.index-1]`, … (vehicle.py:3079-3081, 3150-3156, orbiter.py:271-276).  `index ≥ 1` after a
successful propagation. -/
def terminal (o : PropOut) : Py Terminal := do
  let r ← pyIndex o.c.r (o.index - 1)
  let v ← pyIndex o.c.v (o.index - 1)
  let g ← pyIndex o.c.gamma (o.index - 1)
  let theta ← pyIndex o.c.theta (o.index - 1)
  let phi ← pyIndex o.c.phi (o.index - 1)
  let psi ← pyIndex o.c.psi (o.index - 1)
  return { r := r, v := v, g := g, theta := theta, phi := phi, psi := psi }

end PropOut

namespace Vehicle

/-- `computeEnergy` (vehicle.py:2314-2336). -/
def computeEnergy (V : Vehicle) (r v : List ℝ) : List ℝ :=
  List.zipWith (fun r v => -1.0 * V.planet.GM / r + 0.5 * v ^ 2) r v

/-- `isCaptured` (vehicle.py:3009-3041). -/
def isCaptured (V : Vehicle) (mode : ScipyMode) (I : Integrator) (tSec dt deltaDeg : ℝ) : Py ℤ := do
  let out ← V.propogateEntry mode I tSec dt deltaDeg
  let energy := V.computeEnergy out.c.r out.c.v
  let e ← pyIndex energy (out.index - 1)
  return if e < 0 then -1 else 1

/-- `hitsTargetApoapsis` (vehicle.py:3044-3113). -/
def hitsTargetApoapsis (V : Vehicle) (mode : ScipyMode) (I : Integrator) (tSec dt deltaDeg targetKm : ℝ) :
    Py ℤ := do
  let out ← V.propogateEntry mode I tSec dt deltaDeg
  let s ← out.terminal
  V.planet.apoapsisVerdict s.r s.v s.g targetKm

/-- `hitsTargetApoapsis2` (vehicle.py:3115-3226). -/
def hitsTargetApoapsis2 (V : Vehicle) (mode : ScipyMode) (I : Integrator) (tSec dt deltaDeg targetKm : ℝ) :
    Py ℤ := do
  let out ← V.propogateEntry2 mode I tSec dt deltaDeg
  let s ← out.terminal
  V.planet.apoapsisVerdict2 s targetKm

end Vehicle

namespace Planet

/-- `compute_periapsis_raise_DV` (vehicle.py:4690-4725); `none` is NaN. -/
def periapsisRaiseDV (P : Planet) (currentPeriKm currentApoKm targetPeriKm : ℝ) : Option ℝ := do
  let Ecur := -P.GM / (P.RP + currentApoKm * 1E3 + currentPeriKm * 1E3 + P.RP)
  let vCur ← npSqrt (2 * Ecur + 2 * P.GM / (P.RP + currentApoKm * 1E3))
  let Etar := -P.GM / (P.RP + currentApoKm * 1E3 + targetPeriKm * 1E3 + P.RP)
  let vTar ← npSqrt (2 * Etar + 2 * P.GM / (P.RP + currentApoKm * 1E3))
  return vTar - vCur

/-- `compute_apoapsis_raise_DV` (vehicle.py:4727-4760). -/
def apoapsisRaiseDV (P : Planet) (periKm apoCurKm apoTarKm : ℝ) : Option ℝ := do
  let Ecur := -P.GM / (P.RP + apoCurKm * 1E3 + periKm * 1E3 + P.RP)
  let vCur ← npSqrt (2 * Ecur + 2 * P.GM / (periKm * 1E3 + P.RP))
  let Etar := -P.GM / (apoTarKm * 1E3 + P.RP + periKm * 1E3 + P.RP)
  let vTar ← npSqrt (2 * Etar + 2 * P.GM / (periKm * 1E3 + P.RP))
  return vTar - vCur

end Planet

end AMAT
