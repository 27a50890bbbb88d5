import Verif.Model.Cubic

/-
Quadratic interpolation as done by `scipy.interpolate.interp1d(kind='quadratic')`, an option of
`Planet.loadAtmosphereModel` (planet.py:247, 268-270, 305-308).
-/

noncomputable section

open Classical

namespace AMAT

/-- One polynomial piece, in powers of the distance from its left end. -/
structure Quad where
  a : ℝ
  b : ℝ
  c : ℝ

/-- Value of the piece at distance `u` from its left end. -/
def Quad.eval (p : Quad) (u : ℝ) : ℝ := p.a + p.b * u + p.c * u ^ 2

/-- Derivative of the piece. -/
def Quad.slope (p : Quad) (u : ℝ) : ℝ := p.b + 2 * p.c * u

/-- Ends of the pieces for the abscissae `x 0, …, x n`: the first and the last abscissa and, in between, the midpoints of
the intervals except the first and the last interval. -/
def quadKnot (n : ℕ) (x : ℕ → ℝ) (j : ℕ) : ℝ :=
  if j = 0 then x 0 else if j = n - 1 then x n else (x j + x (j + 1)) / 2

/-- `p 0, …, p (n-2)` are the pieces of the continuously differentiable quadratic spline through `(x 0, y 0), …, (x n, y n)`
whose pieces meet halfway between the abscissae: what `scipy.interpolate.make_interp_spline(x, y, k=2)` computes,
which `interp1d(kind='quadratic')` calls. -/
structure IsQuadSpline (n : ℕ) (x y : ℕ → ℝ) (p : ℕ → Quad) : Prop where
  node : ∀ j, j + 1 < n → (p j).eval (x (j + 1) - quadKnot n x j) = y (j + 1)
  first : (p 0).eval 0 = y 0
  last : (p (n - 2)).eval (x n - quadKnot n x (n - 2)) = y n
  value : ∀ j, j + 2 < n → (p j).eval (quadKnot n x (j + 1) - quadKnot n x j) = (p (j + 1)).eval 0
  slope : ∀ j, j + 2 < n → (p j).slope (quadKnot n x (j + 1) - quadKnot n x j) = (p (j + 1)).slope 0

/-- Contract of `interp1d(X, Y, kind='quadratic', fill_value=fill, bounds_error=False)` on a table given by its rows
`(X_i, Y_i)` (planet.py:305-308): the rows are sorted by abscissa, at least three rows with distinct abscissae are needed,
between the first and the last abscissa the function is the spline, outside it is `fill`. -/
def IsQuadInterp (rows : List (ℝ × ℝ)) (fill : ℝ) (f : ℝ → ℝ) : Prop :=
  let s := rows.mergeSort (fun a b => decide (a.1 ≤ b.1))
  let n := rows.length - 1
  let x := fun i => (s.getD i (0, 0)).1
  let y := fun i => (s.getD i (0, 0)).2
  2 ≤ n ∧ (∀ i < n, x i < x (i + 1)) ∧
  ∃ p : ℕ → Quad, IsQuadSpline n x y p ∧
    (∀ j, j + 1 < n → ∀ t, quadKnot n x j ≤ t → t ≤ quadKnot n x (j + 1) → f t = (p j).eval (t - quadKnot n x j)) ∧
    (∀ t, t < x 0 ∨ x n < t → f t = fill)

/-- `Planet.loadAtmosphereModel` (planet.py:247-308) with `intType='quadratic'`: what the four interpolation functions are
after the call, for a file with the given rows.  (Fewer than three rows or a repeated height make SciPy raise.) -/
def LoadedQuad (P : Planet) (km : Bool) (rows : List AtmRow) (atm : Atmosphere) : Prop :=
  IsQuadInterp (rows.map fun r => (atmHeight km r, r.temp)) 0 atm.tempInt ∧
  IsQuadInterp (rows.map fun r => (atmHeight km r, r.pres)) 0 atm.pressureInt ∧
  IsQuadInterp (rows.map fun r => (atmHeight km r, r.dens)) 0 atm.densityInt ∧
  IsQuadInterp (rows.map fun r => (atmHeight km r, Real.sqrt (P.CPCV * r.pres / r.dens))) 1e20 atm.sonicInt

end AMAT
