import Mathlib.Analysis.SpecialFunctions.Complex.Arg
import Verif.Model.Orbit
import Verif.Spec.Vec3

/-
Rotation matrices, orbital elements and the position and velocity formulas shared (by copied text) between
`AMAT/approach.py`, `AMAT/orbiter.py` and `AMAT/visibility.py`.

`none` stands for a value that is not a finite number (NaN or infinity); NumPy propagates NaN through all later
arithmetic, so the model propagates `none`.
-/

noncomputable section

open Classical

namespace AMAT

/-- A 3×3 `np.array` by rows. -/
@[ext] structure Mat3 where
  r1 : V3
  r2 : V3
  r3 : V3

/-- `np.matmul(M, v.T).T` for a vector. -/
def Mat3.mulVec (M : Mat3) (v : V3) : V3 := ⟨V3.dot M.r1 v, V3.dot M.r2 v, V3.dot M.r3 v⟩

/-- Columns. -/
def Mat3.transpose (M : Mat3) : Mat3 :=
  ⟨⟨M.r1.x, M.r2.x, M.r3.x⟩, ⟨M.r1.y, M.r2.y, M.r3.y⟩, ⟨M.r1.z, M.r2.z, M.r3.z⟩⟩

/-- `np.matmul(M, N)`. -/
def Mat3.mul (M N : Mat3) : Mat3 :=
  ⟨N.transpose.mulVec M.r1, N.transpose.mulVec M.r2, N.transpose.mulVec M.r3⟩

/-- `R1` (approach.py:298-315, visibility.py:39-56). -/
def R1 (t : ℝ) : Mat3 := ⟨⟨1, 0, 0⟩, ⟨0, Real.cos t, Real.sin t⟩, ⟨0, -Real.sin t, Real.cos t⟩⟩

/-- `R2` (approach.py:317-334, visibility.py:58-75). -/
def R2 (t : ℝ) : Mat3 := ⟨⟨Real.cos t, 0, -Real.sin t⟩, ⟨0, 1, 0⟩, ⟨Real.sin t, 0, Real.cos t⟩⟩

/-- `R3` (approach.py:336-353, visibility.py:77-94). -/
def R3 (t : ℝ) : Mat3 := ⟨⟨Real.cos t, Real.sin t, 0⟩, ⟨-Real.sin t, Real.cos t, 0⟩, ⟨0, 0, 1⟩⟩

/-- `ICRF_to_BI` (approach.py:355-371, visibility.py:21-37). -/
def icrfToBi (P : Planet) (X : V3) : V3 :=
  ((R1 (Real.pi / 2 - P.d0)).mul (R3 (Real.pi / 2 + P.a0))).mulVec X

/-- `np.arctan2(y, x)`: the angle of the point `(x, y)` in `(-π, π]`, `0` at the origin (signed zeros are not
modelled). -/
def arctan2 (y x : ℝ) : ℝ := Complex.arg ⟨x, y⟩

/-- The orientation angles of an orbit. -/
structure Orient where
  i : ℝ
  OMEGA : ℝ
  omega : ℝ

/-- Inclination, node and argument of periapsis from the angular-momentum vector and the unit eccentricity vector
(approach.py:212-227, orbiter.py:355-375, 698-718, 821-841: the same text four times). -/
def orient (hVec eUnit : V3) : Option Orient := do
  let hUnit ← npUnit hVec
  let i ← npArccos hUnit.z
  let nUnit ← npUnit (V3.cross ⟨0, 0, 1⟩ hVec)
  let aN ← npArccos nUnit.x
  let OMEGA := if nUnit.y ≥ 0 then aN else 2 * Real.pi - aN
  let aE ← npArccos (V3.dot nUnit eUnit)
  let omega := if eUnit.z ≥ 0 then aE else 2 * Real.pi - aE
  return ⟨i, OMEGA, omega⟩

/-- The unit vector `[rx_unit, ry_unit, rz_unit]` (approach.py:411-413, orbiter.py:418-420, 940-942). -/
def conicUnit (o : Orient) (theta : ℝ) : V3 :=
  ⟨Real.cos o.OMEGA * Real.cos theta - Real.sin o.OMEGA * Real.cos o.i * Real.sin theta,
    Real.sin o.OMEGA * Real.cos theta + Real.cos o.OMEGA * Real.cos o.i * Real.sin theta,
    Real.sin o.i * Real.sin theta⟩

/-- `r_mag_bi` (approach.py:444-460, orbiter.py:381-397, 903-919). -/
def conicRadius (GM h e thetaStar : ℝ) : Option ℝ :=
  npDiv (h ^ 2 / GM) (1 + e * Real.cos thetaStar)

/-- `pos_vec_bi` (approach.py:392-416, orbiter.py:399-423, 921-945). -/
def conicPos (GM h e : ℝ) (o : Orient) (thetaStar : ℝ) : Option V3 := do
  let r ← npDiv (h ^ 2 / GM) (1 + e * Real.cos thetaStar)
  return r • conicUnit o (thetaStar + o.omega)

/-- `[vx, vy, vz]` from radial and transverse speed (approach.py:484-494, orbiter.py:500-510, 538-548, 970-980). -/
def conicVel (vr vt : ℝ) (o : Orient) (thetaStar : ℝ) : V3 :=
  let theta := thetaStar + o.omega
  ⟨vr * (Real.cos theta * Real.cos o.OMEGA - Real.sin theta * Real.cos o.i * Real.sin o.OMEGA) +
      vt * (-Real.sin theta * Real.cos o.OMEGA - Real.cos theta * Real.cos o.i * Real.sin o.OMEGA),
    vr * (Real.cos theta * Real.sin o.OMEGA + Real.sin theta * Real.cos o.i * Real.cos o.OMEGA) +
      vt * (Real.cos theta * Real.cos o.i * Real.cos o.OMEGA - Real.sin theta * Real.sin o.OMEGA),
    vr * Real.sin theta * Real.sin o.i + vt * Real.cos theta * Real.sin o.i⟩

end AMAT
