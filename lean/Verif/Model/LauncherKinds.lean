import Verif.Model.Launcher
import Verif.Model.Quadratic

/-
The `kind` argument of `Launcher.__init__` (launcher.py:20-37), which is handed on to `scipy.interpolate.interp1d`.
-/

noncomputable section

open Classical

namespace AMAT

/-- The values that `interp1d` accepts for `kind`. -/
inductive InterpKind where
  | linear | slinear | zero | previous | next | nearest | nearestUp | quadratic | cubic

/-- Value at `t` between the neighbouring rows `(a, u)` and `(b, v)` for the kinds that use these two rows only: `'slinear'`
(spline of order one), `'zero'` (spline of order zero) and `'previous'`, `'next'`, `'nearest'` (halves go to the lower
abscissa), `'nearest-up'` (halves go to the upper one). -/
def InterpKind.between (k : InterpKind) (a u b v t : ℝ) : ℝ :=
  match k with
  | zero | previous => if t < b then u else v
  | next => if t ≤ a then u else v
  | nearest => if t ≤ (a + b) / 2 then u else v
  | nearestUp => if t < (a + b) / 2 then u else v
  | _ => u + (v - u) / (b - a) * (t - a)

/-- Contract of `interp1d(X, Y, kind=k, fill_value=fill, bounds_error=False)` for the kinds of `InterpKind.between`: rows
sorted by abscissa, distinct abscissae, the fill value outside. -/
def IsLocalInterp (k : InterpKind) (rows : List (ℝ × ℝ)) (fill : ℝ) (f : ℝ → ℝ) : Prop :=
  let s := rows.mergeSort (fun a b => decide (a.1 ≤ b.1))
  let n := rows.length - 1
  let x := fun i => (s.getD i (0, 0)).1
  let y := fun i => (s.getD i (0, 0)).2
  1 ≤ n ∧ (∀ i < n, x i < x (i + 1)) ∧
  (∀ i < n, ∀ t, x i ≤ t → t ≤ x (i + 1) → f t = k.between (x i) (y i) (x (i + 1)) (y (i + 1)) t) ∧
  (∀ t, t < x 0 ∨ x n < t → f t = fill)

/-- `Launcher.__init__` (launcher.py:20-37) with any `kind`: what `launchMass` (launcher.py:39-56) evaluates after it. -/
def LaunchCurve (k : InterpKind) (rows : List (ℝ × ℝ)) (f : ℝ → ℝ) : Prop :=
  match k with
  | .linear => launcherInit rows = .ok f
  | .quadratic => IsQuadInterp rows 0 f
  | .cubic => IsCubicInterp rows 0 f
  | k => IsLocalInterp k rows 0 f

end AMAT
