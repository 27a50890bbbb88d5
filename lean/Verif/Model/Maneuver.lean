import Verif.Model.Approach
import Mathlib.Analysis.SpecialFunctions.Arsinh
import Mathlib.Analysis.SpecialFunctions.Artanh

/-
Model of `/repo/AMAT/maneuver.py`.

The three constructors repeat the same few lines for a probe leg (angle from the probe's own hyperbola) and for a
spacecraft leg (angle from the geometry, semi-latus rectum from Lambert's problem); each repeated formula is one function
here, citing every copy.  Attributes are functions of the arguments, `none` when NumPy would hold NaN or an infinity.
-/

noncomputable section

open Classical

namespace AMAT

/-- `np.tan`.  The pole is `none` (in floating point: an arbitrary huge number). -/
def npTan (x : ℝ) : Option ℝ := npDiv (Real.sin x) (Real.cos x)

/-- `np.arctanh`: NaN or an infinity outside the open interval. -/
def npArctanh (x : ℝ) : Option ℝ := if -1 < x ∧ x < 1 then some (Real.artanh x) else none

namespace Maneuver

/-- `theta_star_dv_...` (maneuver.py:104-105, 243-246, 368-369): true anomaly at the manoeuvre radius. -/
def thetaDv (A : Approach) (rDv : ℝ) : Option ℝ := do
  let h ← A.h
  let e ← A.e
  let q ← npDiv (h ^ 2) (A.P.GM * rDv)
  let k ← npDiv 1.0 e
  let t ← npArccos ((q - 1) * k)
  return -1 * t

/-- `r_vec_dv` (maneuver.py:107, 248, 371). -/
def rVecDv (A : Approach) (rDv : ℝ) : Option V3 := do
  let t ← thetaDv A rDv
  A.posVec t

/-- `r_vec_dv_unit` (maneuver.py:108, 249, 372). -/
def rVecDvUnit (A : Approach) (rDv : ℝ) : Option V3 := do
  let r ← rVecDv A rDv
  npUnit r

/-- `delta_theta_star_probe...` (maneuver.py:110, 251-252). -/
def deltaProbe (A : Approach) (rDv : ℝ) : Option ℝ := do
  let t ← thetaDv A rDv
  return |t|

/-- `delta_theta_star_space...` (maneuver.py:111, 374-375). -/
def deltaSpace (S : Approach) (rUnit : V3) : Option ℝ := do
  let u ← S.rpUnit
  npArccos (V3.dot u rUnit)

/-- `f_...` (maneuver.py:115, 130, 256, 261, 385, 396). -/
def fCoef (rp P delta : ℝ) : Option ℝ := do
  let k ← npDiv rp P
  return 1 - k * (1 - Real.cos delta)

/-- `g_...` (maneuver.py:116, 131, 257, 262, 386, 397). -/
def gCoef (GM rDv rp P delta : ℝ) : Option ℝ := do
  let s ← npSqrt (GM * P)
  let q ← npDiv (rDv * rp) s
  return q * Real.sin delta

/-- `v_vec_dv_...` (maneuver.py:118, 133, 258, 263, 387, 398): a vector divided by a scalar. -/
def vecDv (rpVec rVec : V3) (f g : ℝ) : Option V3 :=
  if g = 0 then none else some ((1 / g) • (rpVec - f • rVec))

/-- `P_probe...` (maneuver.py:113, 255, 260). -/
def pProbe (A : Approach) : Option ℝ := do
  let a ← A.a
  let e ← A.e
  return a * (1 - e ^ 2)

/-- `v_vec_dv_probe...` (maneuver.py:113-118, 255-258, 260-263).  `rVec` is the position at which the velocity is
wanted; in `ProbeProbeDeflection` it is probe 1's position for both probes (maneuver.py:248, 263). -/
def vProbe (A : Approach) (rDv : ℝ) (rVec : V3) : Option V3 := do
  let P ← pProbe A
  let d ← deltaProbe A rDv
  let f ← fCoef A.rp P d
  let g ← gCoef A.P.GM rDv A.rp P d
  let rp ← A.rpVec
  vecDv rp rVec f g

/-- `H_dv_probe...` (maneuver.py:138-139, 268-269, 274-275). -/
def hDv (A : Approach) (rDv : ℝ) : Option ℝ := do
  let e ← A.e
  let d ← deltaProbe A rDv
  let q ← npDiv (e - 1) (e + 1)
  let s ← npSqrt q
  let t ← npTan (0.5 * d)
  let x ← npArctanh (s * t)
  return 2 * x

/-- `T1`, `U1`, ... (maneuver.py:141, 146, 270, 276, 403, 407). -/
def timeUnit (A : Approach) : Option ℝ := do
  let a ← A.a
  let q ← npDiv (|a| ^ 3) A.P.GM
  npSqrt q

/-- `TOF_probe...` (maneuver.py:141-144, 270-272, 276-278), in days. -/
def tofProbe (A : Approach) (rDv : ℝ) : Option ℝ := do
  let e ← A.e
  let H ← hDv A rDv
  let t1 ← timeUnit A
  let t2 := |e * Real.sinh H - H|
  npDiv (t1 * t2) 86400

/-- `C...` (maneuver.py:120, 378, 389). -/
def chord (rp rDv delta : ℝ) : Option ℝ := npSqrt (rp ^ 2 + rDv ^ 2 - 2 * rp * rDv * Real.cos delta)

/-- `S...` (maneuver.py:121, 379, 390). -/
def semiPerimeter (rp rDv C : ℝ) : ℝ := 0.5 * (rp + rDv + C)

/-- `alpha_prime...` (maneuver.py:122, 380, 391) and, with `S - C` for `S`, `beta_prime...` (maneuver.py:123, 381, 392). -/
def lambertAngle (a S : ℝ) : Option ℝ := do
  let q ← npDiv S (2 * |a|)
  let s ← npSqrt q
  return 2 * Real.arsinh s

/-- `P_space...` (maneuver.py:125-128, 382-384, 393-395). -/
def pSpace (a rp rDv C S alpha beta : ℝ) : Option ℝ := do
  let p1 ← npDiv (4 * |a| * (S - rp) * (S - rDv)) (C ^ 2)
  let p2 := Real.sinh (0.5 * (alpha + beta))
  return p1 * p2 ^ 2

/-- The chord, semi-perimeter and the two Lambert angles of a spacecraft leg (maneuver.py:120-123, 378-381, 389-392). -/
def lambert (S : Approach) (rDv delta : ℝ) : Option (ℝ × ℝ × ℝ × ℝ) := do
  let a ← S.a
  let C ← chord S.rp rDv delta
  let s := semiPerimeter S.rp rDv C
  let al ← lambertAngle a s
  let be ← lambertAngle a (s - C)
  return (C, s, al, be)

/-- The attribute `P_space...` of a spacecraft leg (maneuver.py:111, 120-128, 374-384, 389-395). -/
def legP (S : Approach) (rDv : ℝ) (rUnit : V3) : Option ℝ := do
  let d ← deltaSpace S rUnit
  let a ← S.a
  let (C, s, al, be) ← lambert S rDv d
  pSpace a S.rp rDv C s al be

/-- `v_vec_dv_space...` (maneuver.py:111, 120-133, 374-387, 389-398). -/
def vSpace (S : Approach) (rDv : ℝ) (rVec rUnit : V3) : Option V3 := do
  let d ← deltaSpace S rUnit
  let a ← S.a
  let (C, s, al, be) ← lambert S rDv d
  let P ← pSpace a S.rp rDv C s al be
  let f ← fCoef S.rp P d
  let g ← gCoef S.P.GM rDv S.rp P d
  let rp ← S.rpVec
  vecDv rp rVec f g

/-- `TOF_space...` (maneuver.py:146-149, 403-405, 407-409), in days. -/
def tofSpace (S : Approach) (rDv : ℝ) (rUnit : V3) : Option ℝ := do
  let d ← deltaSpace S rUnit
  let (_, _, al, be) ← lambert S rDv d
  let u1 ← timeUnit S
  let u2 := (Real.sinh al - al) - (Real.sinh be - be)
  npDiv (u1 * u2) 86400

end Maneuver

open Maneuver

/-! ### `ProbeOrbiterDeflection` -/

/-- The objects built by `ProbeOrbiterDeflection.__init__` (maneuver.py:98-102). -/
structure ProbeOrbiter where
  P : Planet
  probe : Approach
  space : Approach
  rDvRp : ℝ

namespace ProbeOrbiter

/-- maneuver.py:62-102. -/
def init (planet : String) (vInf : V3) (rpProbe psiProbe : ℝ) (hEIProbe : Option ℝ) (rpSpace psiSpace rDvRp : ℝ) :
    Py ProbeOrbiter := do
  let P ← Planet.init planet
  let probe ← Approach.init planet vInf rpProbe psiProbe true hEIProbe
  let space ← Approach.init planet vInf rpSpace psiSpace false none
  return ⟨P, probe, space, rDvRp⟩

variable (D : ProbeOrbiter)

/-- maneuver.py:102. -/
def rDv : ℝ := D.rDvRp * D.P.RP

/-- maneuver.py:104-108. -/
def rVec : Option V3 := rVecDv D.probe D.rDv

/-- maneuver.py:113-118. -/
def vDvProbe : Option V3 := do
  let r ← D.rVec
  vProbe D.probe D.rDv r

/-- maneuver.py:120-133. -/
def vDvSpace : Option V3 := do
  let r ← D.rVec
  let ru ← rVecDvUnit D.probe D.rDv
  vSpace D.space D.rDv r ru

/-- `P_space` (maneuver.py:120-128). -/
def pSpaceAttr : Option ℝ := do
  let ru ← rVecDvUnit D.probe D.rDv
  legP D.space D.rDv ru

/-- maneuver.py:135-136. -/
def dvVec : Option V3 := do
  let vs ← D.vDvSpace
  let vp ← D.vDvProbe
  return vs - vp
def dvMag : Option ℝ := do
  let v ← D.dvVec
  return V3.norm v

/-- maneuver.py:138-149. -/
def tofProbeDays : Option ℝ := tofProbe D.probe D.rDv
def tofSpaceDays : Option ℝ := do
  let ru ← rVecDvUnit D.probe D.rDv
  tofSpace D.space D.rDv ru

end ProbeOrbiter

/-! ### `ProbeProbeDeflection` -/

/-- The objects built by `ProbeProbeDeflection.__init__` (maneuver.py:237-241). -/
structure ProbeProbe where
  P : Planet
  probe1 : Approach
  probe2 : Approach
  rDvRp : ℝ

namespace ProbeProbe

/-- maneuver.py:198-241. -/
def init (planet : String) (vInf : V3) (rp1 psi1 : ℝ) (hEI1 : Option ℝ) (rp2 psi2 : ℝ) (hEI2 : Option ℝ) (rDvRp : ℝ) :
    Py ProbeProbe := do
  let P ← Planet.init planet
  let probe1 ← Approach.init planet vInf rp1 psi1 true hEI1
  let probe2 ← Approach.init planet vInf rp2 psi2 true hEI2
  return ⟨P, probe1, probe2, rDvRp⟩

variable (D : ProbeProbe)

/-- maneuver.py:241. -/
def rDv : ℝ := D.rDvRp * D.P.RP

/-- maneuver.py:248. -/
def rVec : Option V3 := rVecDv D.probe1 D.rDv

/-- maneuver.py:255-258. -/
def vDv1 : Option V3 := do
  let r ← D.rVec
  vProbe D.probe1 D.rDv r

/-- maneuver.py:260-263: the position is probe 1's, the angle is probe 2's own. -/
def vDv2 : Option V3 := do
  let r ← D.rVec
  vProbe D.probe2 D.rDv r

/-- maneuver.py:265-266. -/
def dvVec : Option V3 := do
  let v2 ← D.vDv2
  let v1 ← D.vDv1
  return v2 - v1
def dvMag : Option ℝ := do
  let v ← D.dvVec
  return V3.norm v

/-- maneuver.py:268-278. -/
def tof1Days : Option ℝ := tofProbe D.probe1 D.rDv
def tof2Days : Option ℝ := tofProbe D.probe2 D.rDv

end ProbeProbe

/-! ### `OrbiterOrbiterDeflection` -/

/-- The objects built by `OrbiterOrbiterDeflection.__init__` (maneuver.py:362-366). -/
structure OrbiterOrbiter where
  P : Planet
  space1 : Approach
  space2 : Approach
  rDvRp : ℝ

namespace OrbiterOrbiter

/-- maneuver.py:328-366. -/
def init (planet : String) (vInf : V3) (rp1 psi1 rp2 psi2 rDvRp : ℝ) : Py OrbiterOrbiter := do
  let P ← Planet.init planet
  let space1 ← Approach.init planet vInf rp1 psi1 false none
  let space2 ← Approach.init planet vInf rp2 psi2 false none
  return ⟨P, space1, space2, rDvRp⟩

variable (D : OrbiterOrbiter)

/-- maneuver.py:366. -/
def rDv : ℝ := D.rDvRp * D.P.RP

/-- maneuver.py:368-372. -/
def rVec : Option V3 := rVecDv D.space1 D.rDv

/-- maneuver.py:374-387. -/
def vDv1 : Option V3 := do
  let r ← D.rVec
  let ru ← rVecDvUnit D.space1 D.rDv
  vSpace D.space1 D.rDv r ru

/-- maneuver.py:375, 389-398. -/
def vDv2 : Option V3 := do
  let r ← D.rVec
  let ru ← rVecDvUnit D.space1 D.rDv
  vSpace D.space2 D.rDv r ru

/-- `P_space2` (maneuver.py:389-395). -/
def pSpace2Attr : Option ℝ := do
  let ru ← rVecDvUnit D.space1 D.rDv
  legP D.space2 D.rDv ru

/-- maneuver.py:400-401. -/
def dvVec : Option V3 := do
  let v2 ← D.vDv2
  let v1 ← D.vDv1
  return v2 - v1
def dvMag : Option ℝ := do
  let v ← D.dvVec
  return V3.norm v

/-- maneuver.py:403-409. -/
def tof1Days : Option ℝ := do
  let ru ← rVecDvUnit D.space1 D.rDv
  tofSpace D.space1 D.rDv ru
def tof2Days : Option ℝ := do
  let ru ← rVecDvUnit D.space1 D.rDv
  tofSpace D.space2 D.rDv ru

end OrbiterOrbiter

end AMAT
