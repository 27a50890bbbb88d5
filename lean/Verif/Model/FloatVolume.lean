import Verif.Model.FloatLoad
import Verif.Model.Telecom

/-
Schedules and data volumes once more, with every operation rounded to floating-point numbers.  `scheduleInit` and
`computeDataVolume` (`Verif/Model/Telecom.lean`) take them to be real numbers.

Not modelled: overflow; negative durations of a schedule in the theorems.
-/

noncomputable section

namespace AMAT

/-- `np.linspace(0, T, n)` in doubles: `step = T/(n - 1)`, then `arange(n)*step`, and the last entry is set to `T`.  When
the step underflows to zero NumPy computes `arange(n)/(n - 1)*T` instead.  A single sample is `0*T = 0`.  Adding the zero
start changes nothing. -/
def linspace0R (rnd : ℝ → ℝ) (T : ℝ) (n : ℕ) : List ℝ :=
  let step := rnd (T / ((n : ℝ) - 1))
  (List.range n).map (fun i : ℕ =>
    if 1 < n ∧ i + 1 = n then T
    else if n ≤ 1 then 0
    else if step = 0 then rnd (rnd ((i : ℝ) / ((n : ℝ) - 1)) * T)
    else rnd ((i : ℝ) * step))

/-- telecom.py:275-298 `Schedule.__init__` in doubles; the comparisons with the ends of the windows are exact. -/
def scheduleInitR (rnd : ℝ → ℝ) (tSeconds : ℝ) (numPoints : ℕ) (windows : List (ℝ × ℝ)) : List ℝ × List Bool :=
  let ts := linspace0R rnd tSeconds numPoints
  (ts, ts.map (fun t => windowLoop t false windows))

/-- telecom.py:254-272 `Link.compute_data_volume` in doubles. -/
def computeDataVolumeR (rnd : ℝ → ℝ) (R : ℝ) (tArray : List ℝ) (visible transmit : List Bool) : Py (List ℝ) :=
  if visible.length ≠ tArray.length ∨ transmit.length ≠ tArray.length then .error .valueError
  else cumTrapzR rnd
    (tArray.zip ((visible.zip transmit).map (fun p => rnd (rnd (R * boolNum p.1) * boolNum p.2))))

end AMAT
