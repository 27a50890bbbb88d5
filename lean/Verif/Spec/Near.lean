import Verif.Spec.Switched

/-
States and flights that agree up to a tolerance.
-/

namespace AMAT.Spec

/-- All seven entries of two states agree up to `δ`. -/
structure Near (δ : ℝ) (s s' : FState) : Prop where
  r : |s.r - s'.r| ≤ δ
  theta : |s.theta - s'.theta| ≤ δ
  phi : |s.phi - s'.phi| ≤ δ
  v : |s.v - s'.v| ≤ δ
  psi : |s.psi - s'.psi| ≤ δ
  gamma : |s.gamma - s'.gamma| ≤ δ
  drange : |s.drange - s'.drange| ≤ δ

/-- `z` moves continuously over `[a, b]`, and at every time strictly inside, except at the times in `S`, its rates agree
with the right-hand side `F` up to the defect `δ`. -/
structure NearFlight (F : ℝ → FState → FState) (z : ℝ → FState) (a b : ℝ) (S : Finset ℝ) (δ : ℝ) : Prop where
  r : ContinuousOn (fun t => (z t).r) (Set.Icc a b)
  theta : ContinuousOn (fun t => (z t).theta) (Set.Icc a b)
  phi : ContinuousOn (fun t => (z t).phi) (Set.Icc a b)
  v : ContinuousOn (fun t => (z t).v) (Set.Icc a b)
  psi : ContinuousOn (fun t => (z t).psi) (Set.Icc a b)
  gamma : ContinuousOn (fun t => (z t).gamma) (Set.Icc a b)
  drange : ContinuousOn (fun t => (z t).drange) (Set.Icc a b)
  rates : ∀ t ∈ Set.Ioo a b, t ∉ S → ∃ w, SolvesAt (fun _ => w) z t ∧ Near δ w (F t (z t))

end AMAT.Spec
