import Mathlib.Analysis.ODE.ExistUnique
import Mathlib.Analysis.SpecialFunctions.Trigonometric.Deriv
import Mathlib.Analysis.Calculus.ContDiff.Operations
import Mathlib.Analysis.Calculus.ContDiff.RCLike
import Verif.Model.Vehicle
import Verif.Spec.Ode

/-
The equations of motion as a vector field on a normed space, and its smoothness at regular states.
-/

noncomputable section

namespace AMAT

open Real Spec

/-- Seven coordinates. -/
abbrev R7 := ℝ × ℝ × ℝ × ℝ × ℝ × ℝ × ℝ

def FState.toR7 (s : FState) : R7 := (s.r, s.theta, s.phi, s.v, s.psi, s.gamma, s.drange)

def FState.ofR7 (x : R7) : FState := ⟨x.1, x.2.1, x.2.2.1, x.2.2.2.1, x.2.2.2.2.1, x.2.2.2.2.2.1, x.2.2.2.2.2.2⟩

@[simp] theorem ofR7_toR7 (s : FState) : FState.ofR7 s.toR7 = s := rfl
@[simp] theorem toR7_ofR7 (x : R7) : (FState.ofR7 x).toR7 = x := rfl

theorem hasDerivAt_prod {E : Type*} [NormedAddCommGroup E] [NormedSpace ℝ E] {f : ℝ → ℝ × E} {f' : ℝ × E} {t : ℝ} :
    HasDerivAt f f' t ↔ HasDerivAt (fun s => (f s).1) f'.1 t ∧ HasDerivAt (fun s => (f s).2) f'.2 t := by
  constructor
  · intro h
    exact ⟨h.fst, h.snd⟩
  · intro h
    exact h.1.prodMk h.2

theorem solvesAt_iff (F : FState → FState) (y : ℝ → FState) (t : ℝ) :
    SolvesAt F y t ↔ HasDerivAt (fun s => (y s).toR7) (F (y t)).toR7 t := by
  simp only [hasDerivAt_prod, FState.toR7]
  constructor
  · intro h
    exact ⟨h.r, h.theta, h.phi, h.v, h.psi, h.gamma, h.drange⟩
  · rintro ⟨a, b, c, d, e, f, g⟩
    exact ⟨a, b, c, d, e, f, g⟩

/-- The right-hand side as a vector field. -/
def Vehicle.field (V : Vehicle) (delta : ℝ) (x : R7) : R7 := (V.EOM (FState.ofR7 x) 0 delta).toR7

/-- The drag coefficient given by a curve varies smoothly near a state, or the density vanishes there: the density times
the drag coefficient is continuously differentiable. -/
def Vehicle.SmoothDrag (V : Vehicle) (s : FState) : Prop :=
  V.userDefinedCDMach = true → ContDiffAt ℝ 1 (fun p : ℝ × ℝ =>
    V.planet.density V.atm (p.1 * V.planet.RP - V.planet.RP) *
      V.CDMach (V.machScalar (p.1 * V.planet.RP) (p.2 * V.planet.Vref))) (s.r, s.v)

theorem smoothDrag_const {V : Vehicle} (h : V.userDefinedCDMach = false) (s : FState) : V.SmoothDrag s := by
  intro h'
  rw [h] at h'
  exact absurd h' (by simp)

theorem Dbar_contDiffAt (V : Vehicle) (s : FState) (hcd : V.SmoothDrag s)
    (hrho : ContDiffAt ℝ 1 (V.planet.density V.atm) (s.r * V.planet.RP - V.planet.RP)) :
    ContDiffAt ℝ 1 (fun x : R7 => V.Dbar x.1 x.2.1 x.2.2.1 x.2.2.2.1) s.toR7 := by
  have hd : ContDiffAt ℝ 1 (fun x : R7 => V.planet.density V.atm (x.1 * V.planet.RP - V.planet.RP)) s.toR7 := by
    have h1 : ContDiffAt ℝ 1 (fun x : R7 => x.1 * V.planet.RP - V.planet.RP) s.toR7 := by fun_prop
    exact ContDiffAt.comp (s.toR7) (g := V.planet.density V.atm) hrho h1
  obtain ⟨ρ, hρ⟩ : ∃ ρ : R7 → ℝ, ∀ x, V.planet.density V.atm (x.1 * V.planet.RP - V.planet.RP) = ρ x := ⟨_, fun _ => rfl⟩
  cases h : V.userDefinedCDMach
  · simp only [hρ] at hd
    simp only [Vehicle.Dbar, Planet.rhobar, Planet.rho2, Planet.rho, h, hρ, Bool.false_eq_true, if_false]
    fun_prop
  · have h2 : ContDiffAt ℝ 1 (fun x : R7 => (x.1, x.2.2.2.1)) s.toR7 := by fun_prop
    have h3 := ContDiffAt.comp (s.toR7) (f := fun x : R7 => (x.1, x.2.2.2.1)) (hcd h) h2
    simp only [Function.comp_def] at h3
    have e : (fun x : R7 => V.Dbar x.1 x.2.1 x.2.2.1 x.2.2.2.1) = fun x : R7 =>
        0.5 / V.planet.rho0 * x.2.2.2.1 ^ 2 * V.Abar * (V.planet.density V.atm (x.1 * V.planet.RP - V.planet.RP) *
          V.CDMach (V.machScalar (x.1 * V.planet.RP) (x.2.2.2.1 * V.planet.Vref))) := by
      funext x
      simp only [Vehicle.Dbar, Planet.rhobar, Planet.rho2, Planet.rho, h, if_true]
      ring
    rw [e]
    exact ContDiffAt.mul (by fun_prop) h3

theorem field_contDiffAt (V : Vehicle) (delta : ℝ) (s : FState) (hcd : V.SmoothDrag s)
    (hr : s.r ≠ 0) (hv : s.v ≠ 0) (hphi : cos s.phi ≠ 0) (hg : cos s.gamma + 1e-2 ≠ 0)
    (hrho : ContDiffAt ℝ 1 (V.planet.density V.atm) (s.r * V.planet.RP - V.planet.RP)) :
    ContDiffAt ℝ 1 (V.field delta) s.toR7 := by
  have hD := Dbar_contDiffAt V s hcd hrho
  obtain ⟨κ, hκ⟩ : ∃ κ : R7 → ℝ, ∀ x : R7, V.Dbar x.1 x.2.1 x.2.2.1 x.2.2.2.1 = κ x := ⟨_, fun _ => rfl⟩
  simp only [hκ] at hD
  have hd : ContDiffAt ℝ 1 (fun x : R7 => V.planet.density V.atm (x.1 * V.planet.RP - V.planet.RP)) s.toR7 := by
    have h1 : ContDiffAt ℝ 1 (fun x : R7 => x.1 * V.planet.RP - V.planet.RP) s.toR7 := by fun_prop
    exact ContDiffAt.comp (s.toR7) (g := V.planet.density V.atm) hrho h1
  have e1 : s.toR7.1 ≠ 0 := hr
  have e4 : s.toR7.2.2.2.1 ≠ 0 := hv
  have e3 : cos s.toR7.2.2.1 ≠ 0 := hphi
  have e6 : cos s.toR7.2.2.2.2.2.1 + 1e-2 ≠ 0 := hg
  generalize s.toR7 = x₀ at *
  obtain ⟨ρ, hρ⟩ : ∃ ρ : R7 → ℝ, ∀ x, V.planet.density V.atm (x.1 * V.planet.RP - V.planet.RP) = ρ x := ⟨_, fun _ => rfl⟩
  simp only [hρ] at hd
  have e2 : ∀ k : ℕ, x₀.1 ^ k ≠ 0 := fun k => pow_ne_zero k e1
  unfold Vehicle.field FState.toR7 FState.ofR7
  simp only [Vehicle.EOM, Vehicle.a_sbar, Vehicle.a_nbar, Vehicle.a_wbar, hκ, Vehicle.Lbar,
    Vehicle.cfvbar, Vehicle.cfpsibar, Vehicle.cfgammabar, Vehicle.copsibar, Vehicle.cogammabar, Vehicle.gnbar,
    Vehicle.gsbar, Vehicle.gwbar, Vehicle.grbar, Vehicle.gphibar, Vehicle.gthetabar, Planet.rhobar,
    Planet.rho2, Planet.rho, hρ, Real.tan_eq_sin_div_cos]
  refine ContDiffAt.prodMk ?_ (ContDiffAt.prodMk ?_ (ContDiffAt.prodMk ?_ (ContDiffAt.prodMk ?_
    (ContDiffAt.prodMk ?_ (ContDiffAt.prodMk ?_ ?_)))))
  · fun_prop
  · fun_prop (disch := first | exact mul_ne_zero e1 e3)
  · fun_prop (disch := assumption)
  · fun_prop (disch := first | assumption | exact e2 _ | exact mul_ne_zero e4 e6 | skip)
  · fun_prop (disch := first | assumption | exact e2 _ | exact mul_ne_zero e4 e6 | skip)
  · fun_prop (disch := first | assumption | exact e2 _ | exact mul_ne_zero e4 e6 | skip)
  · fun_prop

end AMAT
