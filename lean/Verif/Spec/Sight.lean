import Verif.Spec.Frames

/-
Specification of lines of sight near a spherical body centred at the origin.
-/

noncomputable section

namespace AMAT.Spec

/-- A point on the surface of a body of radius `RP` turning about the polar axis at the rate `OMEGA`, at latitude
`lat` (rad), starting at longitude zero. -/
def surfacePoint (RP OMEGA lat t : ℝ) : V3 := RP • up (OMEGA * t) lat

/-- The point `T` is strictly above the horizontal plane through the surface point `L`. -/
def AboveHorizon (L T : V3) : Prop := 0 < V3.dot (T - L) L

/-- The straight segment from `A` to `T` passes through the open ball of radius `RP`. -/
def Blocked (RP : ℝ) (A T : V3) : Prop := ∃ s : ℝ, 0 ≤ s ∧ s ≤ 1 ∧ V3.norm (A + s • (T - A)) < RP

/-- The half line from `A` in the direction `T` passes through the open ball of radius `RP`. -/
def BlockedAtInfinity (RP : ℝ) (A T : V3) : Prop := ∃ s : ℝ, 0 ≤ s ∧ V3.norm (A + s • T) < RP

end AMAT.Spec
