import Mathlib.Tactic.NormNum
import Mathlib.Tactic.Linarith
import Mathlib.Tactic.FieldSimp
import Mathlib.Tactic.Positivity
import Mathlib.Tactic.LinearCombination
import Verif.Model.Vehicle
import Verif.Lemmas.Lits
import Verif.Props.PlanetProps

/-
Properties C13 – C15: aerodynamic forces.
-/

noncomputable section

open Classical

namespace AMAT.Props

open AMAT Real AMAT.Lits

/-- A concrete non-degenerate vehicle (numbers of the tests in `/repo/tests`), used to show that the
hypotheses of the theorems below can be met. -/
theorem demo_vehicle_exists : ∃ (P : Planet) (V : Vehicle) (st : InitState), Planet.init "NEPTUNE" = .ok P ∧
    V = Vehicle.mk' 300 78 0.35 3.1416 0 1 P ⟨fun h => 1 / (1 + h ^ 2), fun _ => 1, fun _ => 1, fun _ => 1⟩
      false (fun _ => 1) st := by
  obtain ⟨P, hP⟩ := (C01_planet_names "NEPTUNE").1.mpr (by simp [Spec.bodies])
  exact ⟨P, _, ⟨1000, 0, 0, 28, 0, -11, 0, 0⟩, hP, rfl⟩

/-- C13: the constructor keeps the declared ballistic coefficient and the declared L/D ratio of coefficients. -/
theorem C13_beta_kept (m beta LD A alpha RN : ℝ) (P : Planet) (atm : Atmosphere) (u : Bool) (f : ℝ → ℝ)
    (st : InitState) (hm : 0 < m) (hb : 0 < beta) (hA : 0 < A) :
    let V := Vehicle.mk' m beta LD A alpha RN P atm u f st
    V.mass / (V.CD * V.A) = beta ∧ 0 < V.CD ∧ V.CL / V.CD = LD ∧ V.mbar = 1 ∧
    V.mass = m ∧ V.A = A ∧ V.RN = RN ∧ V.beta = beta ∧ V.LD = LD := by
  have hCD : 0 < m / (beta * A) := by positivity
  refine ⟨?_, hCD, ?_, ?_, rfl, rfl, rfl, rfl, rfl⟩
  · simp only [Vehicle.mk']; field_simp
  · exact mul_div_cancel_right₀ _ hCD.ne'
  · simp only [Vehicle.mk']; field_simp

/-- The Neptune vehicle of the tests: 300 kg, ballistic coefficient 78 kg/m². -/
example (P : Planet) (atm : Atmosphere) (st : InitState) :
    (Vehicle.mk' 300 78 0.35 3.1416 0 1 P atm false (fun _ => 1) st).mass /
      ((Vehicle.mk' 300 78 0.35 3.1416 0 1 P atm false (fun _ => 1) st).CD *
        (Vehicle.mk' 300 78 0.35 3.1416 0 1 P atm false (fun _ => 1) st).A) = 78 :=
  (C13_beta_kept 300 78 0.35 3.1416 0 1 P atm false (fun _ => 1) st (by norm_num) (by norm_num) (by norm_num)).1

/-- A table of density 1/(1+h²), positive everywhere, used below. -/
def demoAtm : Atmosphere := ⟨fun h => 1 / (1 + h ^ 2), fun _ => 1, fun _ => 1, fun _ => 200⟩

/-- 50 km above Mars the density of that table is the one the equations of motion see, and it is positive. -/
theorem demoAtm_rho_pos (P : Planet) (hR : P.RP = 3389.5e3) (hT : P.hThres = 120e3) (theta phi : ℝ) :
    0 < P.rho demoAtm 3439.5e3 theta phi := by
  show 0 < P.density demoAtm (3439.5e3 - P.RP)
  rw [(C03_density_regimes P demoAtm (3439.5e3 - P.RP) (by rw [hT]; norm_num)).1 (by rw [hR]; norm_num)
    (by rw [hR, hT]; norm_num)]
  simp only [demoAtm]; positivity

/-- C13 (partial): with a constant drag coefficient, lift is exactly `LD` times drag at every flight condition (both for
the scalar and for the vectorised functions), drag is non-zero wherever density and speed are non-zero, and the
drag deceleration is the dynamic pressure divided by the ballistic coefficient.  Missing: vehicles with a user-supplied
CD(Mach), for which the claim is false (`C13_user_CD_breaks_LD`). -/
theorem C13_lift_to_drag_partial (m beta LD A alpha RN : ℝ) (P : Planet) (atm : Atmosphere) (f : ℝ → ℝ)
    (st : InitState) (hm : 0 < m) (hb : 0 < beta) (hA : 0 < A) (r theta phi v delta : ℝ) :
    let V := Vehicle.mk' m beta LD A alpha RN P atm false f st
    V.L r theta phi v = LD * V.D r theta phi v ∧ V.Lvec r v = LD * V.Dvec r v ∧
    (P.rho atm r theta phi ≠ 0 → v ≠ 0 →
      V.D r theta phi v ≠ 0 ∧ V.L r theta phi v / V.D r theta phi v = LD) ∧
    V.a_s r theta phi v delta = -(P.rho atm r theta phi * v ^ 2 / 2) / beta := by
  have e1 : ∀ r theta phi v, (Vehicle.mk' m beta LD A alpha RN P atm false f st).L r theta phi v
      = LD * (Vehicle.mk' m beta LD A alpha RN P atm false f st).D r theta phi v := by
    intro r theta phi v
    simp only [Vehicle.L, Vehicle.D, Vehicle.CD1, Vehicle.mk']
    simp
    ring
  refine ⟨e1 _ _ _ _, ?_, ?_, ?_⟩
  · simp only [Vehicle.Lvec, Vehicle.Dvec, Vehicle.mk']
    simp
    ring
  · intro hrho hv
    have hD : (Vehicle.mk' m beta LD A alpha RN P atm false f st).D r theta phi v ≠ 0 := by
      simp only [Vehicle.D, Vehicle.CD1, Vehicle.mk']
      simp [hrho, hv, hA.ne', hb.ne', hm.ne']
      norm_num
    exact ⟨hD, by rw [e1]; exact mul_div_cancel_right₀ _ hD⟩
  · simp only [Vehicle.a_s, Vehicle.D, Vehicle.CD1, Vehicle.mk']
    simp
    field_simp
    norm_num
    ring

/-- At 50 km above Mars and 5 km/s, drag is non-zero and the lift-to-drag ratio in flight is the declared 0.35. -/
example : ∃ P, Planet.init "MARS" = .ok P ∧
    (Vehicle.mk' 300 78 0.35 3.1416 0 1 P demoAtm false (fun _ => 1) ⟨120, 0, 0, 6, 0, -12, 0, 0⟩).L 3439.5e3 0 0 5000 /
      (Vehicle.mk' 300 78 0.35 3.1416 0 1 P demoAtm false (fun _ => 1) ⟨120, 0, 0, 6, 0, -12, 0, 0⟩).D 3439.5e3 0 0 5000
      = 0.35 := by
  obtain ⟨P, hP, hR, hT, -⟩ := demo_mars
  exact ⟨P, hP, ((C13_lift_to_drag_partial 300 78 0.35 3.1416 0 1 P demoAtm (fun _ => 1) ⟨120, 0, 0, 6, 0, -12, 0, 0⟩
    (by norm_num) (by norm_num) (by norm_num) 3439.5e3 0 0 5000 0).2.2.1 (demoAtm_rho_pos P hR hT 0 0).ne'
    (by norm_num)).2⟩

/-- C13 (finding, limits of the claim): with a user-supplied CD(Mach) the lift coefficient is *not* scaled along,
so the L/D ratio in flight becomes `LD·CD/CD(Mach)` and differs from the declared one whenever the user function
returns something else than the constant coefficient. -/
theorem C13_user_CD_breaks_LD (m beta LD A alpha RN : ℝ) (P : Planet) (atm : Atmosphere) (f : ℝ → ℝ)
    (st : InitState) (hm : 0 < m) (hb : 0 < beta) (hA : 0 < A) (hLD : LD ≠ 0) (r theta phi v : ℝ)
    (hrho : P.rho atm r theta phi ≠ 0) (hv : v ≠ 0) :
    let V := Vehicle.mk' m beta LD A alpha RN P atm true f st
    f (V.machScalar r v) ≠ 0 →
    (V.L r theta phi v / V.D r theta phi v = LD ↔ f (V.machScalar r v) = V.CD) := by
  intro V hf
  have hCD : V.CD ≠ 0 := by
    have : 0 < m / (beta * A) := by positivity
    exact this.ne'
  have e : V.L r theta phi v / V.D r theta phi v = LD * V.CD / f (V.machScalar r v) := by
    have h1 : V.D r theta phi v = 0.5 * P.rho atm r theta phi * v ^ 2 * A * f (V.machScalar r v) := by
      simp [Vehicle.D, Vehicle.CD1, V, Vehicle.mk']
    have h2 : V.L r theta phi v = 0.5 * P.rho atm r theta phi * v ^ 2 * A * (LD * V.CD) := by
      simp [Vehicle.L, V, Vehicle.mk']
    have hk : (0.5 * P.rho atm r theta phi * v ^ 2 * A) ≠ 0 := by
      have : (0.5:ℝ) ≠ 0 := by norm_num
      simp [hrho, hv, hA.ne', this]
    rw [h1, h2, mul_div_mul_left _ _ hk]
  rw [e, div_eq_iff hf, mul_right_inj' hLD]
  exact eq_comm

/-- The same vehicle with a user function returning 1 at every Mach number (its own coefficient is 1.224…) does not fly
at its declared lift-to-drag ratio. -/
example : ∃ P, Planet.init "MARS" = .ok P ∧
    (Vehicle.mk' 300 78 0.35 3.1416 0 1 P demoAtm true (fun _ => 1) ⟨120, 0, 0, 6, 0, -12, 0, 0⟩).L 3439.5e3 0 0 5000 /
      (Vehicle.mk' 300 78 0.35 3.1416 0 1 P demoAtm true (fun _ => 1) ⟨120, 0, 0, 6, 0, -12, 0, 0⟩).D 3439.5e3 0 0 5000
      ≠ 0.35 := by
  obtain ⟨P, hP, hR, hT, -⟩ := demo_mars
  refine ⟨P, hP, fun h => ?_⟩
  have := (C13_user_CD_breaks_LD 300 78 0.35 3.1416 0 1 P demoAtm (fun _ => 1) ⟨120, 0, 0, 6, 0, -12, 0, 0⟩
    (by norm_num) (by norm_num) (by norm_num) (by norm_num) 3439.5e3 0 0 5000 (demoAtm_rho_pos P hR hT 0 0).ne'
    (by norm_num) one_ne_zero).mp h
  norm_num [Vehicle.mk'] at this

/-- C14: for every bank angle the two lift components have constant resultant, the drag component never depends
on bank; bank 0 is lift up, bank 180° lift down, bank ±90° purely lateral. -/
theorem C14_bank_rotates_lift (V : Vehicle) (r theta phi v delta : ℝ) :
    V.a_n r theta phi v delta ^ 2 + V.a_w r theta phi v delta ^ 2 = (V.L r theta phi v / V.mass) ^ 2 ∧
    (∀ d', V.a_s r theta phi v delta = V.a_s r theta phi v d') ∧
    V.a_n r theta phi v 0 = V.L r theta phi v / V.mass ∧ V.a_w r theta phi v 0 = 0 ∧
    V.a_n r theta phi v π = -(V.L r theta phi v / V.mass) ∧ V.a_w r theta phi v π = 0 ∧
    V.a_n r theta phi v (π / 2) = 0 ∧ V.a_w r theta phi v (π / 2) = V.L r theta phi v / V.mass := by
  refine ⟨?_, fun _ => rfl, ?_, ?_, ?_, ?_, ?_, ?_⟩
  · simp only [Vehicle.a_n, Vehicle.a_w]
    rw [div_pow, div_pow, div_pow, ← add_div]
    congr 1
    have := sin_sq_add_cos_sq delta
    simp only [l00]
    linear_combination (V.L r theta phi v) ^ 2 * this
  all_goals simp [Vehicle.a_n, Vehicle.a_w, l00]
  ring

/-- C14: drag opposes motion: for non-negative density, drag coefficient and area the along-track acceleration is
never positive, and the bank angle enters only through `cos` and `sin` (periodicity, mirror symmetry). -/
theorem C14_drag_opposes (V : Vehicle) (r theta phi v delta : ℝ)
    (h1 : 0 ≤ V.planet.rho V.atm r theta phi) (h2 : 0 ≤ V.A) (h3 : 0 ≤ V.CD1 r v) (h4 : 0 < V.mass) :
    V.a_s r theta phi v delta ≤ 0 ∧
    V.a_n r theta phi v (-delta) = V.a_n r theta phi v delta ∧
    V.a_w r theta phi v (-delta) = -V.a_w r theta phi v delta ∧
    V.a_n r theta phi v (delta + 2 * π) = V.a_n r theta phi v delta ∧
    V.a_w r theta phi v (delta + 2 * π) = V.a_w r theta phi v delta := by
  refine ⟨?_, ?_, ?_, ?_, ?_⟩
  · have : 0 ≤ V.D r theta phi v / V.mass := by
      unfold Vehicle.D; positivity
    simp only [Vehicle.a_s, l00]; linarith
  all_goals simp [Vehicle.a_n, Vehicle.a_w, l00]
  ring

/-- The Mars vehicle above is decelerated. -/
example : ∃ P, Planet.init "MARS" = .ok P ∧
    (Vehicle.mk' 300 78 0.35 3.1416 0 1 P demoAtm false (fun _ => 1) ⟨120, 0, 0, 6, 0, -12, 0, 0⟩).a_s
      3439.5e3 0 0 5000 1 ≤ 0 := by
  obtain ⟨P, hP, hR, hT, -⟩ := demo_mars
  exact ⟨P, hP, (C14_drag_opposes (Vehicle.mk' 300 78 0.35 3.1416 0 1 P demoAtm false (fun _ => 1)
    ⟨120, 0, 0, 6, 0, -12, 0, 0⟩) 3439.5e3 0 0 5000 1 (demoAtm_rho_pos P hR hT 0 0).le (by norm_num [Vehicle.mk'])
    (by norm_num [Vehicle.mk', Vehicle.CD1]) (by norm_num [Vehicle.mk'])).1⟩

/-- C14: the vectorised accelerations used for load reporting have the same structure. -/
theorem C14_vectorised (V : Vehicle) (r v delta : ℝ) :
    V.a_nvec r v delta ^ 2 + V.a_wvec r v delta ^ 2 = (V.Lvec r v / V.mass) ^ 2 ∧
    V.a_svec r v = -(V.Dvec r v / V.mass) := by
  constructor
  · simp only [Vehicle.a_nvec, Vehicle.a_wvec]
    rw [div_pow, div_pow, div_pow, ← add_div]
    congr 1
    have := sin_sq_add_cos_sq delta
    linear_combination (V.Lvec r v) ^ 2 * this
  · simp [Vehicle.a_svec]

/-- C14/C04: at altitudes in `[0, h_thres]` the vectorised accelerations equal the scalar ones. -/
theorem C14_vectorised_agrees (V : Vehicle) (r theta phi v delta : ℝ)
    (h0 : 0 ≤ r - V.planet.RP) (h1 : r - V.planet.RP ≤ V.planet.hThres) :
    V.a_svec r v = V.a_s r theta phi v delta ∧ V.a_nvec r v delta = V.a_n r theta phi v delta ∧
    V.a_wvec r v delta = V.a_w r theta phi v delta := by
  have e := C04_densities_agree_partial V.planet V.atm r theta phi h0 h1
  refine ⟨?_, ?_, ?_⟩
  · simp only [Vehicle.a_svec, Vehicle.a_s, Vehicle.Dvec, Vehicle.D, Vehicle.CD1, Vehicle.machScalar,
      Planet.sonicVec, ← e, l00]
  · simp only [Vehicle.a_nvec, Vehicle.a_n, Vehicle.Lvec, Vehicle.L, ← e, l00]
  · simp only [Vehicle.a_wvec, Vehicle.a_w, Vehicle.Lvec, Vehicle.L, ← e, l00]

/-- 50 km above Mars is within the range. -/
example : ∃ P, Planet.init "MARS" = .ok P ∧ ∀ V : Vehicle, V.planet = P →
    V.a_svec 3439.5e3 5000 = V.a_s 3439.5e3 0 0 5000 1 := by
  obtain ⟨P, hP, hR, hT, -⟩ := demo_mars
  refine ⟨P, hP, fun V hV => (C14_vectorised_agrees V _ 0 0 5000 1 ?_ ?_).1⟩
  · rw [hV, hR]; norm_num
  · rw [hV, hR, hT]; norm_num

/-- C15: for every constructed vehicle on every supported body, every dimensionless state and every bank angle,
the dimensionless aerodynamic accelerations are the physical ones at the corresponding physical state times
`RP/Vref²`, which is also the unit of acceleration implied by the scaling of speed and time (`tau/Vref`) and the
inverse of the surface gravity. -/
theorem C15_dimensionless_aero (name : String) (P : Planet) (hP : Planet.init name = .ok P)
    (m beta LD A alpha RN : ℝ) (atm : Atmosphere) (u : Bool) (f : ℝ → ℝ)
    (st : InitState) (hm : 0 < m) (rbar theta phi vbar delta : ℝ) :
    let V := Vehicle.mk' m beta LD A alpha RN P atm u f st
    let c := P.RP / P.Vref ^ 2
    V.a_sbar rbar theta phi vbar delta = c * V.a_s (rbar * P.RP) theta phi (vbar * P.Vref) delta ∧
    V.a_nbar rbar theta phi vbar delta = c * V.a_n (rbar * P.RP) theta phi (vbar * P.Vref) delta ∧
    V.a_wbar rbar theta phi vbar delta = c * V.a_w (rbar * P.RP) theta phi (vbar * P.Vref) delta ∧
    c = P.tau / P.Vref ∧ c * (P.GM / P.RP ^ 2) = 1 := by
  obtain ⟨_, hR, hG, hrho, _, _, _, _, hV, _, hVV, hT, _⟩ := C01_planet_consistent name P hP
  have hrb : P.rhobar atm rbar theta phi = P.rho atm (rbar * P.RP) theta phi / P.rho0 := rfl
  refine ⟨?_, ?_, ?_, ?_, ?_⟩
  · simp only [Vehicle.a_sbar, Vehicle.a_s, Vehicle.Dbar, Vehicle.D, Vehicle.CD1, Vehicle.mk', hrb,
      Vehicle.machScalar, l00, l05]
    field_simp
    ring
  · simp only [Vehicle.a_nbar, Vehicle.a_n, Vehicle.Lbar, Vehicle.L, Vehicle.mk', hrb, l00, l05]
    generalize LD * (m / (beta * A)) = cl
    field_simp
    ring
  · simp only [Vehicle.a_wbar, Vehicle.a_w, Vehicle.Lbar, Vehicle.L, Vehicle.mk', hrb, l00, l05]
    generalize LD * (m / (beta * A)) = cl
    field_simp
    ring
  · rw [← hT]; field_simp
  · rw [← hVV]; field_simp

/-- The Mars vehicle above, at dimensionless radius 1.01 and speed 1.4. -/
example : ∃ P, Planet.init "MARS" = .ok P ∧
    (Vehicle.mk' 300 78 0.35 3.1416 0 1 P demoAtm false (fun _ => 1) ⟨120, 0, 0, 6, 0, -12, 0, 0⟩).a_nbar 1.01 0 0 1.4 1
      = P.RP / P.Vref ^ 2 *
        (Vehicle.mk' 300 78 0.35 3.1416 0 1 P demoAtm false (fun _ => 1) ⟨120, 0, 0, 6, 0, -12, 0, 0⟩).a_n
          (1.01 * P.RP) 0 0 (1.4 * P.Vref) 1 := by
  obtain ⟨P, hP, -⟩ := demo_mars
  exact ⟨P, hP, (C15_dimensionless_aero "MARS" P hP 300 78 0.35 3.1416 0 1 demoAtm false (fun _ => 1)
    ⟨120, 0, 0, 6, 0, -12, 0, 0⟩ (by norm_num) 1.01 0 0 1.4 1).2.1⟩

end AMAT.Props
