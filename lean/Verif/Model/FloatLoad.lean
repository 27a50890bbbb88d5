import Verif.Model.FloatGrid
import Verif.Model.Numpy

/-
The cumulative trapezoidal rule once more, with every operation rounded to floating-point numbers.  `cumTrapz`
(`Verif/Model/Numpy.lean`) takes the sums to be real numbers.

Not modelled: overflow.
-/

noncomputable section

namespace AMAT

/-- One increment of `scipy.integrate.cumulative_trapezoid`: `d * (y[1:] + y[:-1]) / 2.0` with `d = np.diff(x)`, operation by
operation. -/
def trapzIncR (rnd : ℝ → ℝ) (p q : ℝ × ℝ) : ℝ := rnd (rnd (rnd (q.1 - p.1) * rnd (q.2 + p.2)) / 2)

/-- The running sums (`cumsum` adds one increment after the other). -/
def trapzFromR (rnd : ℝ → ℝ) : ℝ → List (ℝ × ℝ) → List ℝ
  | _, [] => []
  | _, [_] => []
  | acc, p :: q :: rest =>
      let acc' := rnd (acc + trapzIncR rnd p q)
      acc' :: trapzFromR rnd acc' (q :: rest)

/-- `cumulative_trapezoid(y, x, initial=0)` in doubles (vehicle.py:2307, 2515, 2602, 2782, 2939, 5915, 6688, 6860, 7631 with a
zero initial value; planet.py:843; telecom.py:271).  An empty array raises `ValueError`. -/
def cumTrapzR (rnd : ℝ → ℝ) (samples : List (ℝ × ℝ)) : Py (List ℝ) :=
  match samples with
  | [] => .error .valueError
  | _ => .ok (0 :: trapzFromR rnd 0 samples)

end AMAT
