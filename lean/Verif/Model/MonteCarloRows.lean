import Verif.Model.MonteCarloData
import Verif.Model.Planet

/-
Reading the shipped Monte Carlo density files: the rows of `Model/MonteCarloData.lean` as
`Planet.loadMonteCarloDensityFile2` (planet.py:847-903) delivers them with the column numbers and the unit
flag of the examples, `setupMonteCarloSimulation(…, atmfiles, 0, 1, 2, 3, 4, True, …)` (for instance
examples/example-13-venus-aerocapture-5a.py).
-/

noncomputable section

namespace AMAT

/-- A packed density, as the number `np.loadtxt` reads (planet.py:893-899). -/
def packedValue (d : ℕ) : ℝ := (d / 100 : ℕ) / 10 ^ (d % 100)

/-- The packed columns of a row: height + 100, low, mean, high and total density. -/
def packedColumns (n : ℕ) : ℕ × ℕ × ℕ × ℕ × ℕ :=
  (n / 10 ^ 24, n / 10 ^ 18 % 10 ^ 6, n / 10 ^ 12 % 10 ^ 6, n / 10 ^ 6 % 10 ^ 6, n % 10 ^ 6)

/-- One row of a shipped file as `loadMonteCarloDensityFile2` returns it (planet.py:893-903): the height in
kilometres is converted, the perturbation is the total density minus the mean. -/
def packedRow (n : ℕ) : DensRow :=
  loadMC2 true ((packedColumns n).1 - 100) (packedValue (packedColumns n).2.1)
    (packedValue (packedColumns n).2.2.1) (packedValue (packedColumns n).2.2.2.1)
    (packedValue (packedColumns n).2.2.2.2)

/-- A whole file: its profiles one after the other. -/
def packedFile (profiles : List (List ℕ)) : List DensRow := (profiles.map (·.map packedRow)).flatten

end AMAT
