import Verif.Model.FloatGrid
import Verif.Model.Guidance

/-
The roll-rate limiter once more, with every operation rounded to floating-point numbers.  `psuedoController`
(`Verif/Model/Guidance.lean`) takes them to be real numbers.

Not modelled: overflow.
-/

noncomputable section

namespace AMAT

/-- `psuedoController` (vehicle.py:4530-4574), operation by operation: the difference, its sign times the roll rate, times the
timestep, added to the present angle (lines 4561 and 4570).  Python evaluates the products from left to right.  The unused
`bankRate` of line 4569 is left out. -/
def psuedoControllerR (rnd : ℝ → ℝ) (maxRollRate cmd ini timestep : ℝ) : ℝ × ℝ :=
  if |rnd (cmd - ini)| > rnd (maxRollRate * timestep) then
    (rnd (ini + rnd (rnd (npSign (rnd (cmd - ini)) * maxRollRate) * timestep)),
     rnd (ini + rnd (rnd (npSign (rnd (cmd - ini)) * maxRollRate) * timestep)))
  else
    (rnd (ini + rnd (rnd (npSign (rnd (cmd - ini)) * maxRollRate) * timestep)),
     rnd (ini + rnd (rnd (npSign (rnd (cmd - ini)) * maxRollRate) * timestep)))

end AMAT
