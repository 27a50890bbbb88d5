import Verif.Model.Planet

/-
Cubic interpolation as done by `scipy.interpolate.interp1d(kind='cubic')`, the default of
`Planet.loadAtmosphereModel` (planet.py:247, 305-308).
-/

noncomputable section

open Classical

namespace AMAT

/-- One polynomial piece, in powers of the distance from the left node. -/
structure Cubic where
  a : ℝ
  b : ℝ
  c : ℝ
  d : ℝ

/-- Value of the piece at distance `u` from its left node. -/
def Cubic.eval (p : Cubic) (u : ℝ) : ℝ := p.a + p.b * u + p.c * u ^ 2 + p.d * u ^ 3

/-- First derivative of the piece. -/
def Cubic.slope (p : Cubic) (u : ℝ) : ℝ := p.b + 2 * p.c * u + 3 * p.d * u ^ 2

/-- Second derivative of the piece. -/
def Cubic.curvature (p : Cubic) (u : ℝ) : ℝ := 2 * p.c + 6 * p.d * u

/-- `p 0, …, p (n-1)` are the pieces of the twice continuously differentiable cubic spline through
the nodes `(x 0, y 0), …, (x n, y n)` with the "not-a-knot" end condition (continuous third derivative
at the second and the last but one node): what `scipy.interpolate.make_interp_spline(x, y, k=3)`
computes, which `interp1d(kind='cubic')` calls. -/
structure IsNotAKnot (n : ℕ) (x y : ℕ → ℝ) (p : ℕ → Cubic) : Prop where
  left : ∀ i < n, (p i).eval 0 = y i
  right : ∀ i < n, (p i).eval (x (i + 1) - x i) = y (i + 1)
  slope : ∀ i, i + 1 < n → (p i).slope (x (i + 1) - x i) = (p (i + 1)).slope 0
  curvature : ∀ i, i + 1 < n → (p i).curvature (x (i + 1) - x i) = (p (i + 1)).curvature 0
  start : (p 0).d = (p 1).d
  stop : (p (n - 2)).d = (p (n - 1)).d

/-- Contract of `interp1d(X, Y, kind='cubic', fill_value=fill, bounds_error=False)` on a table given
by its rows `(X_i, Y_i)` (planet.py:305-308): the rows are sorted by abscissa, at least four rows with
distinct abscissae are needed, between the first and the last abscissa the function is the spline, outside it
is `fill`. -/
def IsCubicInterp (rows : List (ℝ × ℝ)) (fill : ℝ) (f : ℝ → ℝ) : Prop :=
  let s := rows.mergeSort (fun a b => decide (a.1 ≤ b.1))
  let n := rows.length - 1
  let x := fun i => (s.getD i (0, 0)).1
  let y := fun i => (s.getD i (0, 0)).2
  3 ≤ n ∧ (∀ i < n, x i < x (i + 1)) ∧
  ∃ p : ℕ → Cubic, IsNotAKnot n x y p ∧
    (∀ i < n, ∀ t, x i ≤ t → t ≤ x (i + 1) → f t = (p i).eval (t - x i)) ∧
    (∀ t, t < x 0 ∨ x n < t → f t = fill)

/-- One row of an atmosphere file: the columns `heightCol`, `tempCol`, `presCol`, `densCol`
(planet.py:276-286). -/
structure AtmRow where
  height : ℝ
  temp : ℝ
  pres : ℝ
  dens : ℝ

/-- The altitude of a row in metres (planet.py:278-282). -/
def atmHeight (km : Bool) (r : AtmRow) : ℝ := if km then r.height * 1e3 else r.height

/-- `Planet.loadAtmosphereModel` (planet.py:247-308) with the default `intType='cubic'`: what the four
interpolation functions are after the call, for a file with the given rows.  (A file for which no such
functions exist - fewer than four rows or a repeated height - makes SciPy raise.) -/
def LoadedCubic (P : Planet) (km : Bool) (rows : List AtmRow) (atm : Atmosphere) : Prop :=
  IsCubicInterp (rows.map fun r => (atmHeight km r, r.temp)) 0 atm.tempInt ∧
  IsCubicInterp (rows.map fun r => (atmHeight km r, r.pres)) 0 atm.pressureInt ∧
  IsCubicInterp (rows.map fun r => (atmHeight km r, r.dens)) 0 atm.densityInt ∧
  IsCubicInterp (rows.map fun r => (atmHeight km r, Real.sqrt (P.CPCV * r.pres / r.dens))) 1e20
    atm.sonicInt

end AMAT
