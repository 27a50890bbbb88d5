import Mathlib.Analysis.Calculus.Deriv.Basic
import Verif.Spec.Vec3
import Verif.Model.Planet

/-
What it means for a curve of states to solve a system of ordinary differential equations.
-/

namespace AMAT.Spec

/-- The seven-component curve `y` satisfies `dy/dt = F(y)` at time `t`. -/
structure SolvesAt (F : FState → FState) (y : ℝ → FState) (t : ℝ) : Prop where
  r : HasDerivAt (fun s => (y s).r) (F (y t)).r t
  theta : HasDerivAt (fun s => (y s).theta) (F (y t)).theta t
  phi : HasDerivAt (fun s => (y s).phi) (F (y t)).phi t
  v : HasDerivAt (fun s => (y s).v) (F (y t)).v t
  psi : HasDerivAt (fun s => (y s).psi) (F (y t)).psi t
  gamma : HasDerivAt (fun s => (y s).gamma) (F (y t)).gamma t
  drange : HasDerivAt (fun s => (y s).drange) (F (y t)).drange t

/-- Derivative of a vector-valued curve. -/
def HasDerivV3 (f : ℝ → V3) (f' : V3) (t : ℝ) : Prop :=
  HasDerivAt (fun s => (f s).x) f'.x t ∧ HasDerivAt (fun s => (f s).y) f'.y t ∧
  HasDerivAt (fun s => (f s).z) f'.z t

end AMAT.Spec
