import Verif.Spec.Near
import Verif.Spec.Kepler
import Verif.Model.Vehicle

/-
Specification for C109: which point of a sampled flight the code looks at, and what the orbit there says.
-/

noncomputable section

namespace AMAT.Spec

/-- Of `N` output points with altitudes `alt 0, …, alt (N - 1)`, number `k` is the last one before the vehicle leaves the
atmosphere: the next one is the first above the skip altitude and no point is below ground; or the next one is the first
below the trap altitude, and the vehicle is below ground at some point or never above the skip altitude; or all points are
between the two altitudes and `k` is the last. -/
def LastInside (P : Planet) (N : ℕ) (alt : ℕ → ℝ) (k : ℕ) : Prop :=
  ((∀ j < N, 0 ≤ alt j) ∧ k + 1 < N ∧ P.hSkip < alt (k + 1) ∧ ∀ j ≤ k, alt j ≤ P.hSkip) ∨
  (((∃ j < N, alt j < 0) ∨ ∀ j < N, alt j ≤ P.hSkip) ∧ k + 1 < N ∧ alt (k + 1) < P.hTrap ∧ ∀ j ≤ k, P.hTrap ≤ alt j) ∨
  (k + 1 = N ∧ ∀ j < N, P.hTrap < alt j ∧ alt j ≤ P.hSkip)

/-- Square of the radial speed at radius `rho` on the orbit through the dimensionless state `s` (radius, speed relative to
the planet, flight-path angle), in SI units. -/
def radialSqAt (P : Planet) (rho : ℝ) (s : FState) : ℝ :=
  radialSq P.GM ((s.v * P.Vref) ^ 2 / 2 - P.GM / (s.r * P.RP)) (s.r * P.RP * (s.v * P.Vref) * Real.cos s.gamma) rho

/-- The state is above the altitude `L` and its orbit rises beyond the radius `rho`. -/
def RisesBeyond (P : Planet) (L rho : ℝ) (s : FState) : Prop :=
  L < s.r * P.RP - P.RP ∧ (rho < s.r * P.RP ∨ 0 < radialSqAt P rho s)

/-- The state is below the altitude `L`, or below the radius `rho` on an orbit that turns back before it. -/
def FallsShort (P : Planet) (L rho : ℝ) (s : FState) : Prop :=
  s.r * P.RP - P.RP < L ∨ (s.r * P.RP < rho ∧ radialSqAt P rho s < 0)

end AMAT.Spec
