import Mathlib.Data.Real.Basic
import Mathlib.Analysis.Real.Sqrt
import Verif.Model.Py

/-
The fragment of NumPy / SciPy that the modelled code calls.  Floating point numbers are
idealised as real numbers.
-/

noncomputable section

open Classical

namespace AMAT

/-! ### Linear interpolation (`scipy.interpolate.interp1d`, `kind='linear'`) -/

/-- Evaluation of a piecewise-linear table at `x`.  Models the body of
`interp1d._call_linear` as used from launcher.py:32-37 and planet.py:1045/1088:
`searchsorted` (left) finds the first node `≥ x`, the index is clipped to `[1, n-1]`, and
the straight line through the two neighbouring nodes is evaluated. -/
def interpSeg : List (ℝ × ℝ) → ℝ → ℝ
  | [], _ => 0
  | [p], _ => p.2
  | p :: q :: rest, x =>
      if x ≤ q.1 ∨ rest = [] then (q.2 - p.2) / (q.1 - p.1) * (x - p.1) + p.2
      else interpSeg (q :: rest) x

/-- `interp1d(x, y, kind='linear', fill_value=(lo, hi), bounds_error=False)` on nodes that
are already sorted by abscissa: `lo` below the first node, `hi` above the last one. -/
def interpSorted (nodes : List (ℝ × ℝ)) (lo hi x : ℝ) : ℝ :=
  match nodes.head?, nodes.getLast? with
  | some a, some b => if x < a.1 then lo else if b.1 < x then hi else interpSeg nodes x
  | _, _ => 0

/-- The constructor call `interp1d(x, y, kind='linear', fill_value=(lo, hi),
bounds_error=False)` (launcher.py:32-37, planet.py:1045, 1088, vehicle.py:713).  SciPy sorts
the nodes by abscissa (`assume_sorted=False`, stable sort) and rejects an empty table.
Simplification: a table with a single node is also rejected. -/
def interp1d (nodes : List (ℝ × ℝ)) (lo hi : ℝ) : Py (ℝ → ℝ) :=
  if nodes.length < 2 then .error .valueError
  else .ok (interpSorted (nodes.mergeSort (fun a b => decide (a.1 ≤ b.1))) lo hi)

/-! ### Cumulative trapezoidal rule (`scipy.integrate.cumulative_trapezoid`) -/

/-- Running trapezoid sums of the samples `(x, y)`, starting from the accumulated value
`acc`; the value *after* each interval. -/
def trapzFrom : ℝ → List (ℝ × ℝ) → List ℝ
  | _, [] => []
  | _, [_] => []
  | acc, p :: q :: rest =>
      let acc' := acc + (q.1 - p.1) * (p.2 + q.2) / 2
      acc' :: trapzFrom acc' (q :: rest)

/-- How `cumulative_trapezoid` treats a non-zero `initial` argument.  `legacy`: older SciPy
versions simply *prepend* the value (it is not added to the integral).  `strict`: the version pinned
by `/repo/uv.lock` (1.17.1) raises `ValueError`. -/
inductive ScipyMode where
  | legacy
  | strict
  deriving DecidableEq, Repr

/-- `cumulative_trapezoid(y, x, initial=init)`; `samples` is the zipped list `(x_i, y_i)`.
An empty array raises `ValueError`. -/
def cumTrapz (mode : ScipyMode) (samples : List (ℝ × ℝ)) (init : ℝ) : Py (List ℝ) :=
  match samples with
  | [] => .error .valueError
  | _ =>
      if mode = .strict ∧ init ≠ 0 then .error .valueError
      else .ok (init :: trapzFrom 0 samples)

/-! ### Grids -/

/-- `np.linspace(0, T, n)`: `n` equally spaced samples from `0` to `T` inclusive
(a single sample is `0`). -/
def linspace0 (T : ℝ) (n : ℕ) : List ℝ :=
  (List.range n).map (fun i : ℕ => (i : ℝ) * (T / ((n : ℝ) - 1)))

/-- `np.linspace(a, b, n)`. -/
def linspace (a b : ℝ) (n : ℕ) : List ℝ :=
  (List.range n).map (fun i : ℕ => a + (i : ℝ) * ((b - a) / ((n : ℝ) - 1)))

/-! ### Boolean `argmax`, python `max` / `min` -/

/-- `np.argmax(b)` of a boolean array: index of the first `True`, and `0` when there is none. -/
def argmaxBool (b : List Bool) : ℕ :=
  if true ∈ b then b.findIdx (fun x => x) else 0

/-- python `max(l)` of a sequence; the empty sequence raises `ValueError`. -/
def pyMax : List ℝ → Py ℝ
  | [] => .error .valueError
  | x :: xs => .ok (xs.foldl max x)

/-- python `min(l)` of a sequence; the empty sequence raises `ValueError`. -/
def pyMin : List ℝ → Py ℝ
  | [] => .error .valueError
  | x :: xs => .ok (xs.foldl min x)

/-- `np.sqrt`: `none` models the NaN returned for a negative argument. -/
def npSqrt (x : ℝ) : Option ℝ := if 0 ≤ x then some (Real.sqrt x) else none

/-- `x / y` for NumPy numbers, `none` for a zero denominator. -/
def npDiv (x y : ℝ) : Option ℝ := if y = 0 then none else some (x / y)

end AMAT
