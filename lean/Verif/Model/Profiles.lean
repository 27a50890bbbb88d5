import Mathlib.Algebra.Order.Floor.Ring
import Verif.Model.Planet

/-
Model of the altitude-profile functions of `/repo/AMAT/planet.py`: the array lookups by altitude (lines 346-427), `rbar`
(544-559) and the data drawn by `checkAtmProfiles` (610-683).
-/

noncomputable section

open Classical

namespace AMAT

/-- `Planet.tempvectorized` (planet.py:346-365). -/
def Atmosphere.tempVectorized (atm : Atmosphere) (h : List ℝ) : List ℝ := h.map atm.tempInt

/-- `Planet.presvectorized` (planet.py:367-385). -/
def Atmosphere.presVectorized (atm : Atmosphere) (h : List ℝ) : List ℝ := h.map atm.pressureInt

/-- `Planet.densityvectorized` (planet.py:387-406). -/
def Atmosphere.densityVectorized (atm : Atmosphere) (h : List ℝ) : List ℝ := h.map atm.densityInt

/-- `Planet.avectorized` (planet.py:408-427). -/
def Atmosphere.aVectorized (atm : Atmosphere) (h : List ℝ) : List ℝ := h.map atm.sonicInt

/-- `Planet.rbar` (planet.py:544-559). -/
def Planet.rbarOf (P : Planet) (r : ℝ) : ℝ := r / P.RP

/-- Python `int(x)` of a float: truncation towards zero. -/
def pyInt (x : ℝ) : ℤ := if 0 ≤ x then ⌊x⌋ else ⌈x⌉

/-- What `checkAtmProfiles` draws: altitudes (m) and the four profiles. -/
structure Profiles where
  h : List ℝ
  temp : List ℝ
  pres : List ℝ
  dens : List ℝ
  sonic : List ℝ

/-- `Planet.checkAtmProfiles` (planet.py:610-683), up to drawing: line 628 and the four lookups of 633-636.  A negative
number of samples is rejected by `np.linspace`; `dh = 0` divides by zero. -/
def Planet.checkAtmProfiles (P : Planet) (atm : Atmosphere) (h0 dh : ℝ) : Py Profiles := do
  if dh = 0 then throw .zeroDivisionError
  let n := pyInt (P.hThres / dh)
  if n < 0 then throw .valueError
  let h := linspace h0 P.hThres n.toNat
  return { h := h, temp := atm.tempVectorized h, pres := atm.presVectorized h, dens := atm.densityVectorized h,
           sonic := atm.aVectorized h }

end AMAT
