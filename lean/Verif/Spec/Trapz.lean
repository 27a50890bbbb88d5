import Mathlib.Data.Real.Basic

/-! Specification of the trapezoidal integral of a sampled function. -/

namespace AMAT.Spec

/-- Sum over consecutive samples `(x, y)` of `(x₁ - x₀)(y₀ + y₁)/2`. -/
noncomputable def trapz : List (ℝ × ℝ) → ℝ
  | [] => 0
  | [_] => 0
  | p :: q :: rest => (q.1 - p.1) * (p.2 + q.2) / 2 + trapz (q :: rest)

end AMAT.Spec
