import Mathlib.Data.Real.Basic
import Mathlib.Analysis.Real.Sqrt
import Verif.Spec.Vec3

/-
Specification of two-body orbits through conserved quantities.
-/

noncomputable section

namespace AMAT.Spec

/-- Square of the radial speed at radius `rho` on an orbit with specific energy `E` and specific angular momentum
`h`: kinetic energy per unit mass is `E + GM/rho`, the transverse speed is `h/rho`. -/
def radialSq (GM E h rho : ℝ) : ℝ := 2 * (E + GM / rho) - (h / rho) ^ 2

/-- Specific energy of the state (position, velocity). -/
def energy (GM : ℝ) (R U : V3) : ℝ := V3.norm U ^ 2 / 2 - GM / V3.norm R

/-- Magnitude of the specific angular momentum of the state (position, velocity). -/
def angMom (R U : V3) : ℝ := V3.norm (V3.cross R U)

/-- The orbit through the state can reach radius `rho` at or beyond the current radius: `rho` is not above the current
radius, or the radial speed there is real. -/
def Reaches (GM : ℝ) (R U : V3) (rho : ℝ) : Prop :=
  rho ≤ V3.norm R ∨ 0 ≤ radialSq GM (energy GM R U) (angMom R U) rho

/-- Vis-viva: speed at radius `r` on an ellipse with apsides `rp`, `ra`. -/
def visViva (GM r rp ra : ℝ) : ℝ := Real.sqrt (GM * (2 / r - 2 / (rp + ra)))

end AMAT.Spec
