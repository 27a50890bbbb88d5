import Verif.Spec.Ode
import Mathlib.Topology.Order.Basic
import Mathlib.Topology.Instances.Real.Lemmas

/-
Flights whose right-hand side changes abruptly at finitely many times, as the flights assembled by the guided
simulations (bank angle commands held constant between guidance cycles).
-/

namespace AMAT.Spec

/-- `y` moves continuously over the closed interval `[a, b]` and solves the equations with right-hand side `F t` at
every time strictly inside, except at the times in `S`. -/
structure SwitchedFlight (F : ℝ → FState → FState) (y : ℝ → FState) (a b : ℝ) (S : Finset ℝ) : Prop where
  r : ContinuousOn (fun t => (y t).r) (Set.Icc a b)
  theta : ContinuousOn (fun t => (y t).theta) (Set.Icc a b)
  phi : ContinuousOn (fun t => (y t).phi) (Set.Icc a b)
  v : ContinuousOn (fun t => (y t).v) (Set.Icc a b)
  psi : ContinuousOn (fun t => (y t).psi) (Set.Icc a b)
  gamma : ContinuousOn (fun t => (y t).gamma) (Set.Icc a b)
  drange : ContinuousOn (fun t => (y t).drange) (Set.Icc a b)
  solves : ∀ t ∈ Set.Ioo a b, t ∉ S → SolvesAt (F t) y t

end AMAT.Spec
