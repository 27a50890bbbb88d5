import Verif.Model.FloatGrid
import Verif.Model.Numpy

/-
Linear table lookups once more, with every operation rounded to floating-point numbers.  `interp1d`
(`Verif/Model/Numpy.lean`) takes them to be real numbers.

Not modelled: overflow.
-/

noncomputable section

open Classical

namespace AMAT

/-- The straight line through two rows: `slope = (y_hi - y_lo) / (x_hi - x_lo)`, `slope*(x_new - x_lo) + y_lo`, operation by
operation.  SciPy (`interp1d._call_linear`) and NumPy (`np.interp`) use the same expression. -/
def lineR (rnd : ℝ → ℝ) (p q : ℝ × ℝ) (x : ℝ) : ℝ :=
  rnd (rnd (rnd (rnd (q.2 - p.2) / rnd (q.1 - p.1)) * rnd (x - p.1)) + p.2)

/-- Which code evaluates the line.  `interp1d` hands tables of doubles to `np.interp` and evaluates others itself; older
versions always evaluate themselves.  Written from the documented behaviour; neither is part of /repo. -/
inductive LinearCode where
  | scipy
  | numpy

/-- Lookup in the rows.  SciPy takes the first row at or above `x` and the one before it.  NumPy takes the last row at or below
`x`, returns its value if it is at `x`, and else uses the row after it. -/
def interpSegR (rnd : ℝ → ℝ) (c : LinearCode) : List (ℝ × ℝ) → ℝ → ℝ
  | [], _ => 0
  | [p], _ => p.2
  | p :: q :: rest, x =>
      match c with
      | .scipy => if x ≤ q.1 ∨ rest = [] then lineR rnd p q x else interpSegR rnd c (q :: rest) x
      | .numpy => if x = p.1 then p.2 else if x < q.1 then lineR rnd p q x else interpSegR rnd c (q :: rest) x

/-- Lookup with fill values outside the table, as `interpSorted`. -/
def interpSortedR (rnd : ℝ → ℝ) (c : LinearCode) (nodes : List (ℝ × ℝ)) (lo hi x : ℝ) : ℝ :=
  match nodes.head?, nodes.getLast? with
  | some a, some b => if x < a.1 then lo else if b.1 < x then hi else interpSegR rnd c nodes x
  | _, _ => 0

/-- `interp1d(x, y, kind='linear', fill_value=(lo, hi), bounds_error=False)` (launcher.py:35, planet.py:1045, 1088,
vehicle.py:713) on doubles. -/
def interp1dR (rnd : ℝ → ℝ) (c : LinearCode) (nodes : List (ℝ × ℝ)) (lo hi : ℝ) : Py (ℝ → ℝ) :=
  if nodes.length < 2 then .error .valueError
  else .ok (interpSortedR rnd c (nodes.mergeSort (fun a b => decide (a.1 ≤ b.1))) lo hi)

/-- `Launcher.launchMass` (launcher.py:20-56) with the default `kind='linear'`: `np.loadtxt` rounds the numbers of the file. -/
def launchMassR (rnd : ℝ → ℝ) (c : LinearCode) (rows : List (ℝ × ℝ)) (C3 : ℝ) : Py ℝ := do
  let f ← interp1dR rnd c (rows.map (fun p => (rnd p.1, rnd p.2))) 0 0
  .ok (f C3)

end AMAT
