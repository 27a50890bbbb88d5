import Verif.Model.Approach
import Verif.Model.Orbit

/-
Model of `/repo/AMAT/orbiter.py`, classes `Orbiter` and `PropulsiveOrbiter`.

`none` stands for NaN or an infinity, as in `Model/Conic.lean`.  Attributes that the Python code overwrites (`self.a`,
`self.e`, `self.h` after the periapsis-raise manoeuvre, orbiter.py:587-589) have two names here.
-/

noncomputable section

open Classical

namespace AMAT

/-- Size, shape and orientation of an orbit.  As a simplification the elements of a state are `none` as a whole when any
one of them is NaN. -/
structure Elements where
  a : ℝ
  e : ℝ
  h : ℝ
  o : Orient

/-- The elements of the orbit through position `R` and velocity `U` of lengths `r` and `v` with flight-path angle `fpa`
(orbiter.py:346-375, 689-718, 812-841: the same text three times). -/
def elementsOf (P : Planet) (r v fpa : ℝ) (R U : V3) : Option Elements := do
  let E := P.energyScalar r v
  let hm := Planet.angMomScalar r v fpa
  let a ← P.semiMajorAxisScalar E
  let e ← P.eccScalar hm E
  let h ← npSqrt (a * P.GM * (1 - e ^ 2))
  let hVec := V3.cross R U
  let eVec := (1 / P.GM) • ((v ^ 2 - P.GM / r) • R - V3.dot R U • U)
  let eUnit ← npUnit eVec
  let o ← orient hVec eUnit
  return ⟨a, e, h, o⟩

/-- `v_mag_bi` and `arccos(h/(r v 1.0000001))` of `vel_vec_bi` (orbiter.py:494-496, 532-534, 964-966). -/
def speedAngle (GM a h r : ℝ) : Option (ℝ × ℝ) := do
  let q ← npDiv 2 r
  let k ← npDiv 1 a
  let v ← npSqrt (GM * (q - k))
  let x ← npDiv h (r * v * 1.0000001)
  let g ← npArccos x
  return (v, g)

/-- `vel_vec_bi` (orbiter.py:477-511, 947-981: the same text twice). -/
def orbitVel (GM : ℝ) (el : Elements) (thetaStar : ℝ) : Option V3 := do
  let r ← conicRadius GM el.h el.e thetaStar
  let (v, g) ← speedAngle GM el.a el.h r
  let gamma := 1 * g
  return conicVel (v * Real.sin gamma) (v * Real.cos gamma) el.o thetaStar

/-- `pos_vec_bi` (orbiter.py:399-423, 921-945). -/
def orbitPos (GM : ℝ) (el : Elements) (thetaStar : ℝ) : Option V3 := conicPos GM el.h el.e el.o thetaStar

/-- `theta_star` grid and the positions on it, in planet radii (orbiter.py:566-571, 613-618, 762-767, 847-852,
994-999). -/
def orbitArr (P : Planet) (pos : ℝ → Option V3) (t0 t1 : ℝ) (n : ℕ) : List (Option V3) :=
  (linspace t0 t1 n).map fun t => (pos t).map fun R => (1 / P.RP) • R

/-- What `Orbiter.__init__` reads: planet and terminal state of the vehicle (orbiter.py:252-276), target periapsis
altitude. -/
structure Orbiter where
  P : Planet
  s : Terminal
  periAltKm : ℝ

namespace Orbiter

variable (O : Orbiter)

/-- `Orbiter.__init__`, the part that reads the vehicle (orbiter.py:252-276). -/
def init (V : Vehicle) (out : PropOut) (periAltKm : ℝ) : Py Orbiter := do
  let s ← out.terminal
  return ⟨V.planet, s, periAltKm⟩

/-- orbiter.py:254. -/
def rPeriapsisMag : ℝ := O.periAltKm * 1e3 + O.P.RP

/-- orbiter.py:346-375. -/
def coast : Option Elements := do
  let fpa ← O.s.fpaIe O.P
  elementsOf O.P O.s.r (O.s.vIeMag O.P) fpa O.s.rVec (O.s.vIe O.P)

/-- orbiter.py:379. -/
def thetaStarExit : Option ℝ := do
  let el ← O.coast
  let q ← npDiv (el.h ^ 2) (O.P.GM * O.s.r)
  let k ← npDiv 1.0 el.e
  npArccos ((q - 1) * k)

/-- orbiter.py:566-571 (`compute_coast_trajectory`). -/
def coastArr (n : ℕ) : Option (List (Option V3)) := do
  let el ← O.coast
  let t0 ← O.thetaStarExit
  return orbitArr O.P (orbitPos O.P.GM el) t0 Real.pi n

/-- orbiter.py:573-577: the last grid point is `np.pi`. -/
def rApoapsisMag : Option ℝ := do
  let el ← O.coast
  let R ← orbitPos O.P.GM el Real.pi
  return V3.norm ((1 / O.P.RP) • R) * O.P.RP

/-- orbiter.py:579. -/
def vApoapsisVecCoast : Option V3 := do
  let el ← O.coast
  orbitVel O.P.GM el Real.pi

/-- `compute_post_PRM_orbital_elements` (orbiter.py:582-589); orientation angles stay. -/
def orbit : Option Elements := do
  let el ← O.coast
  let ra ← O.rApoapsisMag
  let e ← npDiv (ra - O.rPeriapsisMag) (ra + O.rPeriapsisMag)
  let a ← npDiv ra (1 + e)
  let h ← npSqrt (a * O.P.GM * (1 - e ^ 2))
  return ⟨a, e, h, el.o⟩

/-- orbiter.py:596-600. -/
def prmDvVec : Option V3 := do
  let el ← O.orbit
  let v2 ← orbitVel O.P.GM el Real.pi
  let v1 ← O.vApoapsisVecCoast
  return v2 - v1
def prmDvMag : Option ℝ := do
  let d ← O.prmDvVec
  return V3.norm d

/-- `pos_vec_bi` of the constructed object (after the manoeuvre). -/
def pos (t : ℝ) : Option V3 := do
  let el ← O.orbit
  orbitPos O.P.GM el t

/-- `vel_vec_bi` of the constructed object. -/
def vel (t : ℝ) : Option V3 := do
  let el ← O.orbit
  orbitVel O.P.GM el t

/-- orbiter.py:613-618. -/
def orbitTraj (n : ℕ) : Option (List (Option V3)) := do
  let el ← O.orbit
  return orbitArr O.P (orbitPos O.P.GM el) Real.pi (3 * Real.pi) n

end Orbiter

/-- Flight-path angle of a state (orbiter.py:681-686, 804-809). -/
def fpaOf (R U : V3) : Option ℝ := do
  let rHat ← npUnit R
  let vHat ← npUnit U
  let c ← npArccos (V3.dot rHat vHat)
  let deg := 90.0 - (180 / Real.pi) * c
  return deg * Real.pi / 180

/-- State after a burn of size `dV` along the velocity (orbiter.py:673-676, 796-799). -/
def burn (U : V3) (dV : ℝ) : Option V3 := do
  let u ← npUnit U
  return U + dV • u

/-- The elements after a burn along the velocity (orbiter.py:673-718, 796-841). -/
def burnElements (P : Planet) (R U : V3) (dV : ℝ) : Option Elements := do
  let U2 ← burn U dV
  let fpa ← fpaOf R U2
  elementsOf P (V3.norm R) (V3.norm U2) fpa R U2

/-- A position formula that takes its angles from two orbits: `pos_vec_bi_probe` (orbiter.py:425-449).  Periapsis
argument and the cosine of the inclination come from the orbiter, node and sine of the inclination from the probe. -/
def posProbe (GM : ℝ) (self probe : Elements) (thetaStar : ℝ) : Option V3 := do
  let r ← npDiv (probe.h ^ 2 / GM) (1 + probe.e * Real.cos thetaStar)
  let theta := thetaStar + self.o.omega
  return r • (⟨Real.cos probe.o.OMEGA * Real.cos theta - Real.sin probe.o.OMEGA * Real.cos self.o.i * Real.sin theta,
    Real.sin probe.o.OMEGA * Real.cos theta + Real.cos probe.o.OMEGA * Real.cos self.o.i * Real.sin theta,
    Real.sin probe.o.i * Real.sin theta⟩ : V3)

/-- `pos_vec_bi_orbiter_defl` (orbiter.py:451-475): periapsis argument of the orbiter, everything else of the deflected
orbit. -/
def posDefl (GM : ℝ) (self defl : Elements) (thetaStar : ℝ) : Option V3 := do
  let r ← npDiv (defl.h ^ 2 / GM) (1 + defl.e * Real.cos thetaStar)
  return r • conicUnit defl.o (thetaStar + self.o.omega)

/-- `vel_vec_bi_probe` (orbiter.py:514-549). -/
def velProbe (GM : ℝ) (self probe : Elements) (thetaStar : ℝ) : Option V3 := do
  let R ← posProbe GM self probe thetaStar
  let (v, g) ← speedAngle GM probe.a probe.h (V3.norm R)
  let gamma := -1 * g
  return conicVel (v * Real.sin gamma) (v * Real.cos gamma) probe.o thetaStar

namespace Orbiter

variable (O : Orbiter)

/-- `compute_probe_targeting_trajectory`, the elements (orbiter.py:669-718). -/
def probeElements (thetaStar dV : ℝ) : Option Elements := do
  let R ← O.pos thetaStar
  let U ← O.vel thetaStar
  burnElements O.P R U dV

/-- orbiter.py:726-727: entry anomaly of the probe. -/
def probeEntryAnomaly (probe : Elements) : Option ℝ := do
  let q ← npDiv (probe.h ^ 2) (O.P.GM * (O.P.RP + O.P.hSkip))
  let k ← npDiv 1.0 probe.e
  let c ← npArccos ((q - 1) * k)
  return 2 * Real.pi - c

/-- `compute_probe_targeting_trajectory`, the end (orbiter.py:720-727, 759-767), with the attribute
`theta_star_probe_entry` as explicit state: `.error attributeError` when it was never set.  `prev` is its value before
the call (`none`: no such attribute; `some none`: NaN).  Returns the new value and the sampled positions. -/
def probeTrajectory (self probe : Elements) (prev : Option (Option ℝ)) (thetaStar : ℝ) (n : ℕ) :
    Py (Option (Option ℝ) × Option (List (Option V3))) := do
  let rPeri := probe.a * (1 - probe.e)
  let hPeri := rPeri - O.P.RP
  let attr := if hPeri < O.P.hSkip then some (O.probeEntryAnomaly probe) else prev
  let t1 ← getAttr attr
  let arr := t1.map fun t1 => orbitArr O.P (posProbe O.P.GM self probe) thetaStar t1 n
  return (attr, arr)

/-- The probe entry state (orbiter.py:729-757): position, inertial velocity, latitude, longitude, atmosphere-relative
velocity (`vel_vec_probe_entry_atm`, orbiter.py:620-644), the flight-path angle reported as atmosphere-relative, and
heading. -/
structure ProbeEntry where
  R : V3
  U : V3
  gammaInertial : ℝ
  lat : ℝ
  lon : ℝ
  Uatm : V3
  gammaAtm : ℝ
  heading : ℝ

def probeEntry (self probe : Elements) : Option ProbeEntry := do
  let t ← O.probeEntryAnomaly probe
  let R ← posProbe O.P.GM self probe t
  let ru ← npUnit R
  let U ← velProbe O.P.GM self probe t
  let vu ← npUnit U
  let x ← npDiv probe.h ((O.P.RP + O.P.hSkip) * V3.norm U)
  let g ← npArccos x
  let lat := Real.arcsin ru.z
  let q ← npDiv ru.y ru.x
  let lon := Real.arctan q
  let Uatm : V3 := ⟨U.x - V3.norm R * O.P.OMEGA * Real.cos lat * (-Real.sin lon),
    U.y - V3.norm R * O.P.OMEGA * Real.cos lat * Real.cos lon, U.z⟩
  let au ← npUnit Uatm
  let ga ← npArccos (V3.dot ru vu)
  let proj := au - V3.dot au ru • ru
  let par : V3 := ⟨-Real.sin lon, Real.cos lon, 0.0⟩
  let hd ← npArccos (V3.dot proj par)
  return ⟨R, U, -1 * g, lat, lon, Uatm, Real.pi / 2 - ga, hd⟩

/-- `compute_orbiter_deflection_trajectory`, the elements (orbiter.py:792-841). -/
def deflElements (self probe : Elements) (thetaStar dV : ℝ) : Option Elements := do
  let R ← posProbe O.P.GM self probe thetaStar
  let U ← velProbe O.P.GM self probe thetaStar
  burnElements O.P R U dV

/-- `r_periapsis_orbiter_defl`, `r_apoapsis_orbiter_defl` (orbiter.py:843-844). -/
def deflApses (defl : Elements) : ℝ × ℝ := (defl.a * (1 - defl.e), defl.a * (1 + defl.e))

/-- Whether "Periapsis inside atmospheric skip altitude." is printed (orbiter.py:845, 854-855). -/
def deflWarns (defl : Elements) : Prop := (deflApses defl).1 - O.P.RP < O.P.hSkip

end Orbiter

/-- `PropulsiveOrbiter`: the approach and the apoapsis altitude. -/
structure PropOrbiter where
  A : Approach
  apoAltKm : ℝ

namespace PropOrbiter

/-- `PropulsiveOrbiter.__init__`, the exceptions: `approach.r_vec_rp_bi` exists only for an approach that is not an entry
system (orbiter.py:877, approach.py:292-295). -/
def init (A : Approach) (apoAltKm : ℝ) : Py PropOrbiter :=
  match A.hEI with
  | some _ => .error .attributeError
  | none => .ok ⟨A, apoAltKm⟩

variable (O : PropOrbiter)

/-- orbiter.py:880-881. -/
def rp : ℝ := O.A.rp
def ra : ℝ := O.A.P.RP + O.apoAltKm * 1e3

/-- orbiter.py:883-889. -/
def elements : Option Elements := do
  let a := (O.rp + O.ra) / 2
  let e ← npDiv (O.ra - O.rp) (O.ra + O.rp)
  let h ← npSqrt (a * O.A.P.GM * (1 - e ^ 2))
  let o ← O.A.orientation
  return ⟨a, e, h, o⟩

/-- orbiter.py:891-892. -/
def vpVec : Option V3 := do
  let el ← O.elements
  orbitVel O.A.P.GM el 0

/-- orbiter.py:894-895. -/
def dvVec : Option V3 := do
  let vh ← O.A.velVec 0
  let vp ← O.vpVec
  return vh - vp
def dvMag : Option ℝ := do
  let d ← O.dvVec
  return V3.norm d

/-- orbiter.py:897-898. -/
def dvMagCheck : Option ℝ := do
  let el ← O.elements
  let q ← npDiv 2 O.rp
  let k ← npDiv 1 el.a
  let vp ← npSqrt (O.A.P.GM * (q - k))
  let vh ← O.A.velVec 0
  return V3.norm vh - vp

/-- orbiter.py:994-999. -/
def orbitTraj (n : ℕ) : Option (List (Option V3)) := do
  let el ← O.elements
  return orbitArr O.A.P (orbitPos O.A.P.GM el) 0 (2 * Real.pi) n

/-- `compute_theta_star` (orbiter.py:1040-1041); `none` when the square root is NaN or infinite.  At a pole of the
tangent NumPy returns a huge or infinite number, whose arctangent is `±π/2` (to machine precision); the model returns `π`,
which names the same point of the orbit as `-π`. -/
def thetaStar (e E : ℝ) : Option ℝ := do
  let q ← npDiv (1 + e) (1 - e)
  let s ← npSqrt q
  if Real.cos (E / 2) = 0 then (if s = 0 then none else return Real.pi)
  else return 2 * Real.arctan (s * (Real.sin (E / 2) / Real.cos (E / 2)))

/-- `self.P` (orbiter.py:1014). -/
def period (el : Elements) : Option ℝ := do
  let s ← npSqrt (el.a ^ 3 / O.A.P.GM)
  return 2 * Real.pi * s

/-- `compute_timed_orbit_trajectory` (orbiter.py:1001-1033) for one time of the grid.  `newton f x0` stands for
`optimize.newton(f, x0)`. -/
def timedPos (newton : (ℝ → ℝ) → ℝ → ℝ) (el : Elements) (t : ℝ) : Option V3 := do
  let per ← O.period el
  let M ← npDiv (2 * Real.pi * t) per
  let E := newton (fun E => E - el.e * Real.sin E - M) M
  let th ← thetaStar el.e E
  orbitPos O.A.P.GM el th

/-- The arrays of `compute_timed_orbit_trajectory`: `t_array` and the positions in planet radii. -/
def timedTraj (newton : (ℝ → ℝ) → ℝ → ℝ) (tSeconds : ℝ) (n : ℕ) : Option (List ℝ × List (Option V3)) := do
  let el ← O.elements
  let ts := linspace0 tSeconds n
  return (ts, ts.map fun t => (O.timedPos newton el t).map fun R => (1 / O.A.P.RP) • R)

end PropOrbiter

end AMAT
