import Verif.Spec.Vec3

/-
Specification of frame changes and of motion on a conic, through invariants.
-/

noncomputable section

namespace AMAT.Spec

/-- A proper rotation of ℝ³: additive, homogeneous, preserving scalar products (lengths and angles) and vector
products (handedness). -/
structure IsRotation (f : V3 → V3) : Prop where
  add : ∀ a b, f (a + b) = f a + f b
  smul : ∀ (c : ℝ) a, f (c • a) = c • f a
  dot : ∀ a b, V3.dot (f a) (f b) = V3.dot a b
  cross : ∀ a b, f (V3.cross a b) = V3.cross (f a) (f b)

/-- Eccentricity (Laplace–Runge–Lenz) vector of the state (position, velocity). -/
def eccVec (GM : ℝ) (R U : V3) : V3 :=
  (1 / GM) • V3.cross U (V3.cross R U) - (1 / V3.norm R) • R

end AMAT.Spec
