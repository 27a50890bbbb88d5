import Verif.Spec.Ode

/-
Specification of two-body motion with the true anomaly as independent variable: the anomaly advances at the rate
`h / |R|²`, so derivatives with respect to time are that rate times derivatives with respect to the anomaly.
-/

noncomputable section

namespace AMAT.Spec

/-- At anomaly `t` the curves `R` (position) and `U` (velocity) satisfy `dR/dtime = U` and
`dU/dtime = -GM R / |R|³`. -/
def TwoBodyAt (GM h : ℝ) (R U : ℝ → V3) (t : ℝ) : Prop :=
  HasDerivV3 R ((V3.norm (R t) ^ 2 / h) • U t) t ∧
  HasDerivV3 U ((V3.norm (R t) ^ 2 / h) • ((-GM / V3.norm (R t) ^ 3) • R t)) t

/-- Two-body motion in time: `R' = U` and `U' = -GM R / |R|³` at every time. -/
def TwoBodyMotion (GM : ℝ) (R U : ℝ → V3) : Prop :=
  ∀ t, HasDerivV3 R (U t) t ∧ HasDerivV3 U ((-GM / V3.norm (R t) ^ 3) • R t) t

/-- A two-body motion that starts at `R1` with velocity `V1` and is at `R2` after the time `T`.  Position and velocity at
`T` are combinations of `R1` and `V1` whose coefficients satisfy `f ġ - ḟ g = 1` (the Lagrange coefficients). -/
def Transfer (GM : ℝ) (R1 V1 R2 : V3) (T : ℝ) : Prop :=
  ∃ R U : ℝ → V3, TwoBodyMotion GM R U ∧ R 0 = R1 ∧ U 0 = V1 ∧ R T = R2 ∧
    ∃ f g fd gd : ℝ, R T = f • R1 + g • V1 ∧ U T = fd • R1 + gd • V1 ∧ f * gd - fd * g = 1

end AMAT.Spec
