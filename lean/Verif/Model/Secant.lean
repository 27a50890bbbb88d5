import Verif.Model.Orbiter

/-
Model of `PropulsiveOrbiter.compute_E` (`/repo/AMAT/orbiter.py`, lines 1036-1038) with the algorithm behind
`scipy.optimize.newton(f, x0)` when no derivative is given: the secant method with SciPy's starting points, order of the
first two points, stopping rule (`tol=1.48e-8`, `rtol=0`) and iteration limit (`maxiter=50`).  Exact arithmetic.
`none` stands for the `RuntimeError` raised when the iteration does not stop.  The parameter `rtol` of `compute_E` is not
passed on by the source.
-/

noncomputable section

open Classical

namespace AMAT

/-- The second starting point of `scipy.optimize.newton`. -/
def secantStart (x0 : ℝ) : ℝ :=
  let p1 := x0 * (1 + 1e-4)
  p1 + (if 0 ≤ p1 then 1e-4 else -1e-4)

/-- The next point of the secant method, in the two forms SciPy uses (dividing by the larger value). -/
def secantNext (p0 p1 q0 q1 : ℝ) : ℝ :=
  if |q0| < |q1| then (-q0 / q1 * p1 + p0) / (1 - q0 / q1) else (-q1 / q0 * p0 + p1) / (1 - q1 / q0)

/-- The loop of `scipy.optimize.newton` (secant branch): at most `n` iterations. -/
def secantLoop (f : ℝ → ℝ) : ℕ → ℝ → ℝ → Option ℝ
  | 0, _, _ => none
  | n + 1, p0, p1 =>
    if f p1 = f p0 then (if p1 = p0 then some ((p1 + p0) / 2) else none)
    else
      let p := secantNext p0 p1 (f p0) (f p1)
      if |p - p1| ≤ 1.48e-8 then some p else secantLoop f n p1 p

/-- `scipy.optimize.newton(f, x0)`. -/
def scipyNewton (f : ℝ → ℝ) (x0 : ℝ) : Option ℝ :=
  let p1 := secantStart x0
  if |f p1| < |f x0| then secantLoop f 50 p1 x0 else secantLoop f 50 x0 p1

/-- `compute_E` (orbiter.py:1036-1038). -/
def computeE (e M : ℝ) : Option ℝ := scipyNewton (fun E => E - e * Real.sin E - M) M

/-- `compute_timed_orbit_trajectory` (orbiter.py:1001-1033) for one time of the grid, with `compute_E` as it is; `none` for
NaN or `RuntimeError`. -/
def PropOrbiter.timedPosSecant (O : PropOrbiter) (el : Elements) (t : ℝ) : Option V3 := do
  let per ← O.period el
  let M ← npDiv (2 * Real.pi * t) per
  let E ← computeE el.e M
  let th ← PropOrbiter.thetaStar el.e E
  orbitPos O.A.P.GM el th

end AMAT
