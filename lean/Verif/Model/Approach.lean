import Verif.Model.Conic
import Mathlib.Analysis.SpecialFunctions.Trigonometric.Arctan

/-
Model of `/repo/AMAT/approach.py`, class `Approach`.

The constructor computes its attributes one after the other from its arguments; each attribute is a function of
the arguments here, `none` when NumPy would hold NaN or an infinity.
-/

noncomputable section

open Classical

namespace AMAT

/-- The arguments of `Approach(...)` after construction (approach.py:157-163, 249): `hEI` is `some` exactly for an
entry system. -/
structure Approach where
  P : Planet
  vInfIcrfKms : V3
  rp : ℝ
  psi : ℝ
  hEI : Option ℝ

namespace Approach

/-- `Approach.__init__` (approach.py:128-295): the exceptions it can raise.  An unknown planet raises
`ValueError` (approach.py:157), an entry system without `h_EI` raises `TypeError` (`RP + None`, approach.py:250). -/
def init (arrivalPlanet : String) (vInf : V3) (rp psi : ℝ) (isEntrySystem : Bool) (hEI : Option ℝ) : Py Approach := do
  let P ← Planet.init arrivalPlanet
  if isEntrySystem then
    let h ← needNumber hEI
    return ⟨P, vInf, rp, psi, some h⟩
  else
    return ⟨P, vInf, rp, psi, none⟩

variable (A : Approach)

/-- approach.py:165-166. -/
def vInfMag : ℝ := V3.norm A.vInfIcrfKms * 1e3

/-- approach.py:169. -/
def a : Option ℝ := npDiv (-A.P.GM) (A.vInfMag ^ 2)

/-- approach.py:170. -/
def e : Option ℝ := do
  let a ← A.a
  let q ← npDiv A.rp a
  return 1 - q

/-- approach.py:171. -/
def beta : Option ℝ := do
  let e ← A.e
  let x ← npDiv 1.0 e
  npArccos x

/-- approach.py:174-175. -/
def vInfBiKms : V3 := icrfToBi A.P A.vInfIcrfKms
def vInfBi : V3 := (1e3 : ℝ) • A.vInfBiKms

/-- approach.py:177. -/
def vInfBiUnit : Option V3 := npUnit A.vInfBiKms

/-- approach.py:180-181. -/
def phi1 : ℝ := arctan2 A.vInfBi.y A.vInfBi.x
def vInfBiPrime : V3 := (R3 A.phi1).mulVec A.vInfBi

/-- approach.py:184-187. -/
def phi2 : ℝ := arctan2 A.vInfBiPrime.x A.vInfBiPrime.z
def phi2Analytic : ℝ :=
  arctan2 (A.vInfBi.x * Real.cos A.phi1 + A.vInfBi.y * Real.sin A.phi1) A.vInfBi.z

/-- approach.py:189-197. -/
def rpUnit : Option V3 := do
  let b ← A.beta
  return ⟨Real.cos A.phi1 * (Real.sin b * Real.cos A.psi * Real.cos A.phi2 + Real.cos b * Real.sin A.phi2) -
      Real.sin A.phi1 * Real.sin b * Real.sin A.psi,
    Real.sin A.phi1 * (Real.sin b * Real.cos A.psi * Real.cos A.phi2 + Real.cos b * Real.sin A.phi2) +
      Real.cos A.phi1 * Real.sin b * Real.sin A.psi,
    Real.cos b * Real.cos A.phi2 - Real.sin b * Real.cos A.psi * Real.sin A.phi2⟩

/-- approach.py:199. -/
def rpVec : Option V3 := do
  let u ← A.rpUnit
  return A.rp • u

/-- `BI_to_BI_dprime` (approach.py:373-390). -/
def biToBiDprime (X : V3) : V3 := ((R2 A.phi2).mul (R3 A.phi1)).mulVec X

/-- approach.py:201-204. -/
def rpVecDprime : Option V3 := do
  let r ← A.rpVec
  return A.biToBiDprime r
def rpVecDprimeAnalytic : Option V3 := do
  let b ← A.beta
  return A.rp • (⟨Real.sin b * Real.cos A.psi, Real.sin b * Real.sin A.psi, Real.cos b⟩ : V3)

/-- approach.py:206-207. -/
def eVec : Option V3 := do
  let e ← A.e
  let u ← A.rpUnit
  return e • u
def eUnit : Option V3 := do
  let v ← A.eVec
  npUnit v

/-- approach.py:209. -/
def h : Option ℝ := do
  let a ← A.a
  let e ← A.e
  npSqrt (a * A.P.GM * (1 - e ^ 2))

/-- approach.py:211. -/
def hVec : Option V3 := do
  let r ← A.rpVec
  return V3.cross r A.vInfBi

/-- `h_vec_bi_unit`, `i`, `N_vec_bi_unit`, `OMEGA`, `omega` (approach.py:212-227). -/
def orientation : Option Orient := do
  let hv ← A.hVec
  let eu ← A.eUnit
  orient hv eu

/-- approach.py:229-239: `T_vec_bi_unit` and `R_vec_bi_unit`. -/
def tUnit : Option V3 := npUnit (V3.cross A.vInfBi ⟨0, 0, 1⟩)
def rUnit : Option V3 := npUnit (V3.cross A.vInfBi (V3.cross A.vInfBi ⟨0, 0, 1⟩))

/-- `T_vec_bi_unit_dprime` and `R_vec_bi_unit_dprime` (approach.py:235, 239). -/
def tUnitDprime : Option V3 := do
  let t ← A.tUnit
  return A.biToBiDprime t
def rUnitDprime : Option V3 := do
  let r ← A.rUnit
  return A.biToBiDprime r

/-- approach.py:241. -/
def bMag : Option ℝ := do
  let a ← A.a
  let e ← A.e
  let s ← npSqrt (e ^ 2 - 1)
  return |a| * s

/-- approach.py:242. -/
def bPlaneTheta : ℝ := A.psi + Real.pi / 2

/-- `B_vec_bi` and `B_vec_bi_unit` (approach.py:244-245). -/
def bVec : Option V3 := do
  let hv ← A.hVec
  return V3.cross A.vInfBi hv
def bUnit : Option V3 := do
  let b ← A.bVec
  npUnit b

/-- `pos_vec_bi` (approach.py:392-416). -/
def posVec (thetaStar : ℝ) : Option V3 := do
  let h ← A.h
  let e ← A.e
  let o ← A.orientation
  conicPos A.P.GM h e o thetaStar

/-- `pos_vec_bi_dprime` (approach.py:419-441). -/
def posVecDprime (thetaStar : ℝ) : Option V3 := do
  let r ← A.posVec thetaStar
  return (R2 A.phi2).mulVec ((R3 A.phi1).mulVec r)

/-- `r_mag_bi` (approach.py:444-460). -/
def rMag (thetaStar : ℝ) : Option ℝ := do
  let h ← A.h
  let e ← A.e
  conicRadius A.P.GM h e thetaStar

/-- `vel_vec_bi` (approach.py:462-495). -/
def velVec (thetaStar : ℝ) : Option V3 := do
  let r ← A.rMag thetaStar
  let q ← npDiv (2 * A.P.GM) r
  let v ← npSqrt (A.vInfMag ^ 2 + q)
  let h ← A.h
  let x ← npDiv h (r * v)
  let g ← npArccos x
  let gamma := -1 * g
  let o ← A.orientation
  return conicVel (v * Real.sin gamma) (v * Real.cos gamma) o thetaStar

/-- approach.py:249-252: `r_EI` and `theta_star_entry`; `hEI` of an entry system. -/
def rEI (hEI : ℝ) : ℝ := A.P.RP + hEI
def thetaStarEntry (hEI : ℝ) : Option ℝ := do
  let h ← A.h
  let e ← A.e
  let q ← npDiv (h ^ 2) (A.P.GM * A.rEI hEI)
  let k ← npDiv 1.0 e
  let t ← npArccos ((q - 1) * k)
  return -1 * t

/-- approach.py:254. -/
def rVecEntry (hEI : ℝ) : Option V3 := do
  let t ← A.thetaStarEntry hEI
  A.posVec t

/-- approach.py:255. -/
def rEntryUnit (hEI : ℝ) : Option V3 := do
  let r ← A.rVecEntry hEI
  npUnit r

/-- approach.py:258. -/
def vEntryInertialMag (hEI : ℝ) : Option ℝ := do
  let q ← npDiv (2 * A.P.GM) (A.rEI hEI)
  npSqrt (A.vInfMag ^ 2 + q)

/-- approach.py:260. -/
def gammaEntryInertial (hEI : ℝ) : Option ℝ := do
  let h ← A.h
  let v ← A.vEntryInertialMag hEI
  let x ← npDiv h (A.rEI hEI * v)
  let g ← npArccos x
  return -1 * g

/-- approach.py:262. -/
def vVecEntry (hEI : ℝ) : Option V3 := do
  let t ← A.thetaStarEntry hEI
  A.velVec t

/-- approach.py:263-266. -/
def gammaEntryInertialCheck (hEI : ℝ) : Option ℝ := do
  let v ← A.vVecEntry hEI
  let vu ← npUnit v
  let ru ← A.rEntryUnit hEI
  let g ← npArccos (V3.dot ru vu)
  return Real.pi / 2 - g

/-- approach.py:268: `np.arcsin` of a component of a unit vector. -/
def latitudeEntry (hEI : ℝ) : Option ℝ := do
  let ru ← A.rEntryUnit hEI
  return Real.arcsin ru.z

/-- approach.py:269 (and `xi_1`, 271).  NumPy would return ±π/2 (by the sign of a zero) for a zero denominator; that
case is `none` here. -/
def longitudeEntry (hEI : ℝ) : Option ℝ := do
  let ru ← A.rEntryUnit hEI
  let q ← npDiv ru.y ru.x
  return Real.arctan q

/-- `latitude_entry_bi_analytic` (approach.py:271-273), the second latitude the constructor stores; `xi_1` is the
same expression as the longitude. -/
def latitudeEntryAnalytic (hEI : ℝ) : Option ℝ := do
  let ru ← A.rEntryUnit hEI
  let xi ← A.longitudeEntry hEI
  let q ← npDiv ru.z (ru.x * Real.cos xi + ru.y * Real.sin xi)
  return Real.arctan q

/-- `vel_vec_entry_atm` (approach.py:497-521). -/
def vVecEntryAtm (hEI : ℝ) : Option V3 := do
  let v ← A.vVecEntry hEI
  let r ← A.rVecEntry hEI
  let lat ← A.latitudeEntry hEI
  let lon ← A.longitudeEntry hEI
  return ⟨v.x - V3.norm r * A.P.OMEGA * Real.cos lat * (-Real.sin lon),
    v.y - V3.norm r * A.P.OMEGA * Real.cos lat * Real.cos lon, v.z⟩

/-- approach.py:276-277. -/
def vEntryAtmUnit (hEI : ℝ) : Option V3 := do
  let v ← A.vVecEntryAtm hEI
  npUnit v

/-- approach.py:279-280. -/
def gammaEntryAtm (hEI : ℝ) : Option ℝ := do
  let ru ← A.rEntryUnit hEI
  let vu ← A.vEntryAtmUnit hEI
  let g ← npArccos (V3.dot ru vu)
  return Real.pi / 2 - g

/-- approach.py:282-290. -/
def headingEntryAtm (hEI : ℝ) : Option ℝ := do
  let ru ← A.rEntryUnit hEI
  let vu ← A.vEntryAtmUnit hEI
  let lon ← A.longitudeEntry hEI
  let proj := vu - V3.dot vu ru • ru
  let par : V3 := ⟨-Real.sin lon, Real.cos lon, 0.0⟩
  npArccos (V3.dot proj par)

end Approach

end AMAT
