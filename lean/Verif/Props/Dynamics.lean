import Mathlib.Analysis.Calculus.Deriv.MeanValue
import Mathlib.Analysis.SpecialFunctions.Trigonometric.Deriv
import Mathlib.Analysis.Calculus.Deriv.Inv
import Mathlib.Tactic.Positivity
import Verif.Model.Vehicle
import Verif.Spec.Frames
import Verif.Spec.Ode
import Verif.Lemmas.Frames
import Verif.Lemmas.Lits
import Verif.Props.PlanetProps
import Verif.Props.Aero

/-
Properties C17 – C21, C61 and C65: gravity and equations of motion.
-/

noncomputable section

open Classical

namespace AMAT.Props

open AMAT Real AMAT.Lits AMAT.Spec AMAT.Frames

/-! ### C17: gravity -/

/-- C17: the radial and latitudinal gravity of the code are the exact partial derivatives of the zonal
potential at every position off the centre. -/
theorem C17_gravity_is_gradient (V : Vehicle) (r phi : ℝ) (hr : r ≠ 0) :
    HasDerivAt (fun ρ => potential V.planet.J2 V.planet.J3 ρ phi) (V.grbar r phi) r ∧
    HasDerivAt (fun p => potential V.planet.J2 V.planet.J3 r p) (r * V.gphibar r phi) phi ∧
    Vehicle.gthetabar r phi = 0 := by
  refine ⟨?_, ?_, by simp [Vehicle.gthetabar, l00]⟩
  · have hi : HasDerivAt (fun ρ : ℝ => ρ⁻¹) (-(r ^ 2)⁻¹) r := hasDerivAt_inv hr
    have h3 := (hi.pow 3).const_mul (V.planet.J2 * ((3 * sin phi ^ 2 - 1) / 2))
    have h4 := (hi.pow 4).const_mul (V.planet.J3 * ((5 * sin phi ^ 3 - 3 * sin phi) / 2))
    have h := (hi.sub h3).sub h4
    refine (h.congr_deriv ?_).congr_of_eventuallyEq (Filter.Eventually.of_forall fun ρ => ?_)
    · simp only [Vehicle.grbar, l15, l20, l30, l50, l10]
      norm_num
      field_simp
      ring
    · simp only [potential, Pi.sub_apply, Pi.pow_apply]
      by_cases h0 : ρ = 0
      · simp [h0]
      · field_simp
  · have hs : HasDerivAt (fun p : ℝ => sin p) (cos phi) phi := hasDerivAt_sin phi
    have h2 := ((((hs.pow 2).const_mul 3).sub_const 1).div_const 2).const_mul (V.planet.J2 / r ^ 2)
    have h3 := ((((hs.pow 3).const_mul 5).sub (hs.const_mul 3)).div_const 2).const_mul
      (V.planet.J3 / r ^ 3)
    have h := (((hasDerivAt_const phi (1:ℝ)).sub h2).sub h3).const_mul (1 / r)
    refine (h.congr_deriv ?_).congr_of_eventuallyEq (Filter.Eventually.of_forall fun p => ?_)
    · simp only [Vehicle.gphibar, l15, l30, l50, l10]
      norm_num
      field_simp
      ring
    · simp only [potential, Pi.sub_apply, Pi.pow_apply]

/-- Case for `C17_gravity_is_gradient`: an Earth vehicle at 1.1 radii, 30° latitude. -/
example (P : Planet) (_ : Planet.init "EARTH" = .ok P) :
    HasDerivAt (fun ρ => potential P.J2 P.J3 ρ (π / 6))
      ((Vehicle.mk' 1000 100 0.2 1 0 1 P demoAtm false (fun _ => 1) ⟨0, 0, 0, 0, 0, 0, 0, 0⟩).grbar 1.1 (π / 6)) 1.1 :=
  (C17_gravity_is_gradient (Vehicle.mk' 1000 100 0.2 1 0 1 P demoAtm false (fun _ => 1) ⟨0, 0, 0, 0, 0, 0, 0, 0⟩) 1.1
    (π / 6) (by norm_num)).1

/-- C17: the components along, normal and lateral to the velocity are the same gravity vector expressed in the
rotated (orthonormal) triad, for every heading and flight-path angle; its length is therefore preserved. -/
theorem C17_gravity_only_rotated (V : Vehicle) (r theta phi gamma psi : ℝ) :
    V.gsbar r phi gamma psi • along theta phi psi gamma
      + V.gnbar r phi gamma psi • normal theta phi psi gamma
      + V.gwbar r phi gamma psi • lateral theta phi psi
      = V.grbar r phi • up theta phi + Vehicle.gthetabar r phi • east theta
        + V.gphibar r phi • north theta phi ∧
    V.gsbar r phi gamma psi ^ 2 + V.gnbar r phi gamma psi ^ 2 + V.gwbar r phi gamma psi ^ 2
      = V.grbar r phi ^ 2 + Vehicle.gthetabar r phi ^ 2 + V.gphibar r phi ^ 2 := by
  have h3 := sin_sq_add_cos_sq psi; have h4 := sin_sq_add_cos_sq gamma
  constructor
  · rw [up_eq theta phi psi gamma, east_eq theta phi psi gamma, north_eq theta phi psi gamma]
    ext <;> simp only [Vehicle.gsbar, Vehicle.gnbar, Vehicle.gwbar, l10, V3.add_x, V3.add_y,
      V3.add_z, V3.smul_x, V3.smul_y, V3.smul_z] <;> first | rfl | ring
  · simp only [Vehicle.gsbar, Vehicle.gnbar, Vehicle.gwbar, l10]
    generalize V.grbar r phi = a
    generalize Vehicle.gthetabar r phi = b
    generalize V.gphibar r phi = c
    grind

/-! ### C18: energy -/

/-- C18: along every curve that solves the equations of motion at time `t` (off the centre), the Jacobi energy
has the derivative `speed × along-track aerodynamic acceleration`. -/
theorem C18_jacobi_rate (V : Vehicle) (delta : ℝ) (y : ℝ → FState) (t : ℝ)
    (hy : SolvesAt (fun s => V.EOM s t delta) y t) (hr : (y t).r ≠ 0) :
    HasDerivAt (fun s => jacobi V.planet.J2 V.planet.J3 V.planet.OMEGAbar (y s).r (y s).phi (y s).v)
      ((y t).v * V.a_sbar (y t).r (y t).theta (y t).phi (y t).v delta) t := by
  have hR := hy.r; have hP := hy.phi; have hV := hy.v
  have hi : HasDerivAt (fun s => ((y s).r)⁻¹) (-(V.EOM (y t) t delta).r / (y t).r ^ 2) t :=
    hR.inv hr
  have hs := hP.sin
  -- the potential along the curve
  have h3 := ((hi.pow 3).const_mul V.planet.J2).mul
    (((((hs.pow 2).const_mul 3).sub_const 1).div_const 2))
  have h4 := ((hi.pow 4).const_mul V.planet.J3).mul
    (((((hs.pow 3).const_mul 5).sub (hs.const_mul 3)).div_const 2))
  have hU := (hi.sub h3).sub h4
  have hK := (hV.pow 2).div_const 2
  have hC := ((((hR.mul hP.cos).pow 2).const_mul (V.planet.OMEGAbar ^ 2)).div_const 2)
  have h := (hK.sub hU).sub hC
  refine (h.congr_deriv ?_).congr_of_eventuallyEq (Filter.Eventually.of_forall fun s => ?_)
  · simp only [Vehicle.EOM, Vehicle.gsbar, Vehicle.grbar, Vehicle.gphibar, Vehicle.gthetabar,
      Vehicle.cfvbar, l00, l10, l15, l20, l30, l50, Pi.mul_apply, Pi.pow_apply, Pi.sub_apply]
    generalize V.a_sbar (y t).r (y t).theta (y t).phi (y t).v delta = a
    norm_num
    field_simp
    ring
  · simp only [jacobi, potential, Pi.sub_apply, Pi.pow_apply, Pi.mul_apply]
    by_cases h0 : (y s).r = 0
    · simp [h0]
    · field_simp

/-- Along-track acceleration of a constructed vehicle in physical quantities. -/
theorem a_sbar_physical (name : String) (P : Planet) (hP : Planet.init name = .ok P)
    (m beta LD A alpha RN : ℝ) (atm : Atmosphere) (f : ℝ → ℝ) (st : InitState)
    (hm : 0 < m) (hb : 0 < beta) (hA : 0 < A) (r theta phi v delta : ℝ) :
    (Vehicle.mk' m beta LD A alpha RN P atm false f st).a_sbar r theta phi v delta
      = -(P.RP * P.rho atm (r * P.RP) theta phi * v ^ 2 / (2 * beta)) := by
  have h := (C15_dimensionless_aero name P hP m beta LD A alpha RN atm false f st hm r theta phi v
    delta).1
  have h2 := (C13_lift_to_drag_partial m beta LD A alpha RN P atm f st hm hb hA (r * P.RP) theta phi
    (v * P.Vref) delta).2.2.2
  obtain ⟨_, hR, hG, hrho, _, _, _, _, hV, _⟩ := C01_planet_consistent name P hP
  rw [h, h2]; field_simp

/-- C18: for a constructed vehicle of ballistic coefficient `beta` the Jacobi energy decreases at the rate
"speed × drag deceleration" `ρ v³/(2β)` (in units of the body: `RP·ρ(r·RP)·v³/(2β)`). -/
theorem C18_energy_rate_is_minus_drag_power (name : String) (P : Planet)
    (hP : Planet.init name = .ok P) (m beta LD A alpha RN : ℝ) (atm : Atmosphere) (f : ℝ → ℝ)
    (st : InitState) (hm : 0 < m) (hb : 0 < beta) (hA : 0 < A) (delta : ℝ) (y : ℝ → FState) (t : ℝ)
    (hy : SolvesAt (fun s => (Vehicle.mk' m beta LD A alpha RN P atm false f st).EOM s t delta) y t)
    (hr : (y t).r ≠ 0) :
    HasDerivAt (fun s => jacobi P.J2 P.J3 P.OMEGAbar (y s).r (y s).phi (y s).v)
      (-(P.RP * P.rho atm ((y t).r * P.RP) (y t).theta (y t).phi * (y t).v ^ 3 / (2 * beta))) t := by
  have h := C18_jacobi_rate _ delta y t hy hr
  refine h.congr_deriv ?_
  rw [a_sbar_physical name P hP m beta LD A alpha RN atm f st hm hb hA]
  ring

/-- C18: on every time interval on which a solution stays off the centre with non-negative speed, and the loaded
density table is non-negative, the Jacobi energy never increases — whatever the bank angle history. -/
theorem C18_energy_never_increases (name : String) (P : Planet)
    (hP : Planet.init name = .ok P) (m beta LD A alpha RN : ℝ) (atm : Atmosphere) (f : ℝ → ℝ)
    (st : InitState) (hm : 0 < m) (hb : 0 < beta) (hA : 0 < A) (delta : ℝ → ℝ) (y : ℝ → FState)
    (a b : ℝ) (hatm : ∀ h, 0 ≤ h → h ≤ P.hThres → 0 ≤ atm.densityInt h)
    (hy : ∀ t ∈ Set.Icc a b,
      SolvesAt (fun s => (Vehicle.mk' m beta LD A alpha RN P atm false f st).EOM s t (delta t)) y t)
    (hr : ∀ t ∈ Set.Icc a b, (y t).r ≠ 0) (hv : ∀ t ∈ Set.Icc a b, 0 ≤ (y t).v) :
    AntitoneOn (fun s => jacobi P.J2 P.J3 P.OMEGAbar (y s).r (y s).phi (y s).v) (Set.Icc a b) := by
  have hd := fun t ht => C18_energy_rate_is_minus_drag_power name P hP m beta LD A alpha RN atm f st
    hm hb hA (delta t) y t (hy t ht) (hr t ht)
  apply antitoneOn_of_deriv_nonpos (convex_Icc a b)
  · exact fun t ht => (hd t ht).continuousAt.continuousWithinAt
  · intro t ht
    rw [interior_Icc] at ht
    exact (hd t (Set.Ioo_subset_Icc_self ht)).differentiableAt.differentiableWithinAt
  · intro t ht
    rw [interior_Icc] at ht
    have ht' := Set.Ioo_subset_Icc_self ht
    rw [(hd t ht').deriv]
    obtain ⟨_, hR, _⟩ := C01_planet_consistent name P hP
    have h1 := (C03_density_nonneg name P hP atm hatm ((y t).r * P.RP) (y t).theta (y t).phi).1
    have h2 := hv t ht'
    have : 0 ≤ P.RP * P.rho atm ((y t).r * P.RP) (y t).theta (y t).phi * (y t).v ^ 3 / (2 * beta) := by
      positivity
    linarith

/-- C18: where the density is zero (for instance above `h_thres`) the Jacobi energy is exactly constant. -/
theorem C18_energy_constant_in_vacuum (name : String) (P : Planet)
    (hP : Planet.init name = .ok P) (m beta LD A alpha RN : ℝ) (atm : Atmosphere) (f : ℝ → ℝ)
    (st : InitState) (hm : 0 < m) (hb : 0 < beta) (hA : 0 < A) (delta : ℝ → ℝ) (y : ℝ → FState)
    (a b : ℝ)
    (hy : ∀ t ∈ Set.Icc a b,
      SolvesAt (fun s => (Vehicle.mk' m beta LD A alpha RN P atm false f st).EOM s t (delta t)) y t)
    (hr : ∀ t ∈ Set.Icc a b, P.hThres < P.computeH ((y t).r * P.RP)) :
    ∀ t ∈ Set.Icc a b, jacobi P.J2 P.J3 P.OMEGAbar (y t).r (y t).phi (y t).v
      = jacobi P.J2 P.J3 P.OMEGAbar (y a).r (y a).phi (y a).v := by
  obtain ⟨_, hR, _, _, _, hTr, hTS, hST, _⟩ := C01_planet_consistent name P hP
  have hT : 0 ≤ P.hThres := by linarith
  have hr0 : ∀ t ∈ Set.Icc a b, (y t).r ≠ 0 := by
    intro t ht h0
    have := hr t ht
    simp only [Planet.computeH, h0] at this
    linarith
  have hd : ∀ t ∈ Set.Icc a b, HasDerivAt
      (fun s => jacobi P.J2 P.J3 P.OMEGAbar (y s).r (y s).phi (y s).v) 0 t := by
    intro t ht
    have h := C18_energy_rate_is_minus_drag_power name P hP m beta LD A alpha RN atm f st
      hm hb hA (delta t) y t (hy t ht) (hr0 t ht)
    refine h.congr_deriv ?_
    have : P.rho atm ((y t).r * P.RP) (y t).theta (y t).phi = 0 :=
      (C03_density_regimes P atm _ hT).2.1 (hr t ht)
    rw [this]; ring
  intro t ht
  have hle : a ≤ t := ht.1
  have hsub : Set.Icc a t ⊆ Set.Icc a b := Set.Icc_subset_Icc_right ht.2
  exact constant_of_has_deriv_right_zero
    (f := fun s => jacobi P.J2 P.J3 P.OMEGAbar (y s).r (y s).phi (y s).v) (a := a) (b := t)
    (fun s hs => (hd s (hsub hs)).continuousAt.continuousWithinAt)
    (fun s hs => (hd s (hsub (Set.Ico_subset_Icc_self hs))).hasDerivWithinAt) t ⟨hle, le_rfl⟩

/-! ### C19: kinematics -/

/-- C19: along every solution (off the centre and the poles) the Cartesian position moves with the Cartesian
velocity, and the downrange coordinate grows at the horizontal component of the velocity. -/
theorem C19_kinematics (V : Vehicle) (delta : ℝ) (y : ℝ → FState) (t : ℝ)
    (hy : SolvesAt (fun s => V.EOM s t delta) y t) (hr : (y t).r ≠ 0) (hp : cos (y t).phi ≠ 0) :
    HasDerivV3 (fun s => pos (y s).r (y s).theta (y s).phi)
      (vel (y t).theta (y t).phi (y t).v (y t).psi (y t).gamma) t ∧
    HasDerivAt (fun s => (y s).drange)
      (V3.dot (vel (y t).theta (y t).phi (y t).v (y t).psi (y t).gamma)
        (horiz (y t).theta (y t).phi (y t).psi)) t ∧
    HasDerivAt (fun s => (y s).r)
      (V3.dot (vel (y t).theta (y t).phi (y t).v (y t).psi (y t).gamma)
        (up (y t).theta (y t).phi)) t := by
  refine ⟨?_, ?_, ?_⟩
  · have h := hasDeriv_pos hy.r hy.theta hy.phi
    have e : (V.EOM (y t) t delta).r • up (y t).theta (y t).phi
        + ((y t).r * (V.EOM (y t) t delta).theta * cos (y t).phi) • east (y t).theta
        + ((y t).r * (V.EOM (y t) t delta).phi) • north (y t).theta (y t).phi
        = vel (y t).theta (y t).phi (y t).v (y t).psi (y t).gamma := by
      ext <;> simp only [Vehicle.EOM, vel, along, horiz, V3.add_x, V3.add_y, V3.add_z, V3.smul_x,
        V3.smul_y, V3.smul_z] <;> field_simp <;> first | rfl | ring
    rw [← e]; exact h
  · refine hy.drange.congr_deriv ?_
    have h1 := sin_sq_add_cos_sq (y t).theta; have h2 := sin_sq_add_cos_sq (y t).phi
    have h3 := sin_sq_add_cos_sq (y t).psi; have h4 := sin_sq_add_cos_sq (y t).gamma
    simp only [Vehicle.EOM, V3.dot, vel, along, horiz, up, east, north, V3.add_x, V3.add_y, V3.add_z,
      V3.smul_x, V3.smul_y, V3.smul_z]
    grind
  · refine hy.r.congr_deriv ?_
    have h1 := sin_sq_add_cos_sq (y t).theta; have h2 := sin_sq_add_cos_sq (y t).phi
    have h3 := sin_sq_add_cos_sq (y t).psi; have h4 := sin_sq_add_cos_sq (y t).gamma
    simp only [Vehicle.EOM, V3.dot, vel, along, horiz, up, east, north, V3.add_x, V3.add_y, V3.add_z,
      V3.smul_x, V3.smul_y, V3.smul_z]
    grind

/-! ### C20: Newton's law -/

/-- Force per unit mass: aerodynamics (drag along, lift rolled by the bank angle) plus the gradient of the
potential. `D`, `L` are the drag and lift accelerations, `Ur`, `Up` the partial derivatives of the potential. -/
def specForce (D L delta Ur Up : ℝ) (s : FState) : V3 :=
  (-D) • along s.theta s.phi s.psi s.gamma
    + (L * cos delta) • normal s.theta s.phi s.psi s.gamma
    + (L * sin delta) • lateral s.theta s.phi s.psi
    + Ur • up s.theta s.phi + (Up / s.r) • north s.theta s.phi

/-- Exact acceleration produced by the code's equations of motion: Newton's law plus a lateral error term caused
by the `+1e-2` regularisation. -/
theorem newton_exact (name : String) (P : Planet)
    (hP : Planet.init name = .ok P) (m beta LD A alpha RN : ℝ) (atm : Atmosphere) (f : ℝ → ℝ)
    (st : InitState) (hm : 0 < m) (hb : 0 < beta) (hA : 0 < A) (delta : ℝ) (y : ℝ → FState) (t : ℝ)
    (hy : SolvesAt (fun s => (Vehicle.mk' m beta LD A alpha RN P atm false f st).EOM s t delta) y t)
    (hr : (y t).r ≠ 0) (hp : cos (y t).phi ≠ 0) (hv : (y t).v ≠ 0)
    (hg : cos (y t).gamma + 1e-2 ≠ 0) (Ur Up : ℝ)
    (hUr : HasDerivAt (fun ρ => potential P.J2 P.J3 ρ (y t).phi) Ur (y t).r)
    (hUp : HasDerivAt (fun p => potential P.J2 P.J3 (y t).r p) Up (y t).phi) :
    let D := P.RP * P.rho atm ((y t).r * P.RP) (y t).theta (y t).phi * (y t).v ^ 2 / (2 * beta)
    let X := pos (y t).r (y t).theta (y t).phi
    let W := vel (y t).theta (y t).phi (y t).v (y t).psi (y t).gamma
    let N := rotatingAccel P.OMEGAbar X W (specForce D (LD * D) delta Ur Up (y t))
    let err := V3.dot N (lateral (y t).theta (y t).phi (y t).psi)
      + 2 * P.OMEGAbar * (y t).v * cos (y t).gamma * sin (y t).phi
    HasDerivV3 (fun s => vel (y s).theta (y s).phi (y s).v (y s).psi (y s).gamma)
      (N - (1e-2 / (cos (y t).gamma + 1e-2) * err) • lateral (y t).theta (y t).phi (y t).psi) t := by
  intro D X W N err
  set V := Vehicle.mk' m beta LD A alpha RN P atm false f st with hVdef
  have hD : V.a_sbar (y t).r (y t).theta (y t).phi (y t).v delta = -D :=
    a_sbar_physical name P hP m beta LD A alpha RN atm f st hm hb hA _ _ _ _ _
  have hmbar : V.mbar = 1 := (C13_beta_kept m beta LD A alpha RN P atm false f st hm hb hA).2.2.2.1
  have hL : V.Lbar (y t).r (y t).theta (y t).phi (y t).v = LD * D := by
    have e : V.Lbar (y t).r (y t).theta (y t).phi (y t).v
        = LD * V.Dbar (y t).r (y t).theta (y t).phi (y t).v := by
      simp only [Vehicle.Lbar, Vehicle.Dbar, hVdef, Vehicle.mk']
      simp
      ring
    have e2 : V.Dbar (y t).r (y t).theta (y t).phi (y t).v = D := by
      simp only [Vehicle.a_sbar, hmbar, l00] at hD
      linarith
    rw [e, e2]
  have hN : V.a_nbar (y t).r (y t).theta (y t).phi (y t).v delta = LD * D * cos delta := by
    simp only [Vehicle.a_nbar, hmbar, hL, l00]; ring
  have hW : V.a_wbar (y t).r (y t).theta (y t).phi (y t).v delta = LD * D * sin delta := by
    simp only [Vehicle.a_wbar, hmbar, hL, l00]; ring
  have hG := C17_gravity_is_gradient V (y t).r (y t).phi hr
  have eUr : Ur = V.grbar (y t).r (y t).phi := hUr.unique hG.1
  have eUp : Up = (y t).r * V.gphibar (y t).r (y t).phi := hUp.unique hG.2.1
  have eUp' : Up / (y t).r = V.gphibar (y t).r (y t).phi := by rw [eUp]; field_simp
  have hΩ : V.planet.OMEGAbar = P.OMEGAbar := rfl
  -- components of N in the triad
  obtain ⟨t1, t2, t3, t4, t5, t6⟩ := triad_orthonormal (y t).theta (y t).phi (y t).psi (y t).gamma
  set al := along (y t).theta (y t).phi (y t).psi (y t).gamma with hal
  set nm := normal (y t).theta (y t).phi (y t).psi (y t).gamma with hnm
  set lt := lateral (y t).theta (y t).phi (y t).psi with hlt
  set gr := V.grbar (y t).r (y t).phi with hgr
  set gp := V.gphibar (y t).r (y t).phi with hgp
  let Ns := -D + sin (y t).gamma * gr + cos (y t).gamma * sin (y t).psi * gp
    + P.OMEGAbar ^ 2 * (y t).r * cos (y t).phi *
      (sin (y t).gamma * cos (y t).phi - cos (y t).gamma * sin (y t).phi * sin (y t).psi)
  let Nn := LD * D * cos delta + cos (y t).gamma * gr - sin (y t).gamma * sin (y t).psi * gp
    + P.OMEGAbar ^ 2 * (y t).r * cos (y t).phi *
      (cos (y t).gamma * cos (y t).phi + sin (y t).gamma * sin (y t).phi * sin (y t).psi)
    + 2 * P.OMEGAbar * (y t).v * cos (y t).phi * cos (y t).psi
  let Nw := LD * D * sin delta + cos (y t).psi * gp
    - P.OMEGAbar ^ 2 * (y t).r * cos (y t).phi * sin (y t).phi * cos (y t).psi
    + 2 * P.OMEGAbar * (y t).v *
      (cos (y t).phi * sin (y t).gamma * sin (y t).psi - sin (y t).phi * cos (y t).gamma)
  have hNdec : N = Ns • al + Nn • nm + Nw • lt := by
    simp only [N, rotatingAccel, specForce]
    rw [eUr, eUp', coriolis_eq, centripetal_eq P.OMEGAbar (y t).r (y t).theta (y t).phi (y t).psi
      (y t).gamma, up_eq (y t).theta (y t).phi (y t).psi (y t).gamma,
      north_eq (y t).theta (y t).phi (y t).psi (y t).gamma, ← hal, ← hnm, ← hlt]
    ext <;> simp only [Ns, Nn, Nw, V3.add_x, V3.add_y, V3.add_z, V3.sub_x, V3.sub_y, V3.sub_z,
      V3.smul_x, V3.smul_y, V3.smul_z] <;> first | rfl | ring
  have hNlat : V3.dot N lt = Nw := by
    rw [hNdec]
    have : V3.dot (Ns • al + Nn • nm + Nw • lt) lt
        = Ns * V3.dot al lt + Nn * V3.dot nm lt + Nw * V3.dot lt lt := by
      simp only [V3.dot, V3.add_x, V3.add_y, V3.add_z, V3.smul_x, V3.smul_y, V3.smul_z]; ring
    rw [this, t3, t5, t6]; ring
  have hder := hasDeriv_vel hy.theta hy.phi hy.v hy.psi hy.gamma
  have e : N - (1e-2 / (cos (y t).gamma + 1e-2) * err) • lt =
      (V.EOM (y t) t delta).v • al + ((y t).v * (V.EOM (y t) t delta).gamma) • nm
        + ((y t).v * cos (y t).gamma * (V.EOM (y t) t delta).psi) • lt
        + (y t).v • V3.cross ((V.EOM (y t) t delta).theta • (⟨0, 0, 1⟩ : V3)
            - (V.EOM (y t) t delta).phi • east (y t).theta) al := by
    have htr := transport_eq (y t).r (y t).theta (y t).phi (y t).v (y t).psi (y t).gamma hr hp
    rw [← hal, ← hnm, ← hlt] at htr
    have hth : (V.EOM (y t) t delta).theta
        = (y t).v * cos (y t).gamma * cos (y t).psi / ((y t).r * cos (y t).phi) := rfl
    have hph : (V.EOM (y t) t delta).phi = (y t).v * cos (y t).gamma * sin (y t).psi / (y t).r := rfl
    rw [hth, hph, htr]
    have cs : (V.EOM (y t) t delta).v = Ns := by
      simp only [Vehicle.EOM, hD, Vehicle.gsbar, Vehicle.gthetabar, Vehicle.cfvbar, hΩ, l00, Ns,
        ← hgr, ← hgp]
      ring
    have cn : (y t).v * (V.EOM (y t) t delta).gamma = Nn + (y t).v ^ 2 * cos (y t).gamma / (y t).r := by
      simp only [Vehicle.EOM, hN, Vehicle.gnbar, Vehicle.gthetabar, Vehicle.cfgammabar,
        Vehicle.cogammabar, hΩ, l00, l10, l20, Nn, ← hgr, ← hgp]
      field_simp
      ring
    have cw : (y t).v * cos (y t).gamma * (V.EOM (y t) t delta).psi
        = Nw - 1e-2 / (cos (y t).gamma + 1e-2) * err
          - (y t).v ^ 2 * cos (y t).gamma ^ 2 * cos (y t).psi * tan (y t).phi / (y t).r := by
      have herr : err = Nw + 2 * P.OMEGAbar * (y t).v * cos (y t).gamma * sin (y t).phi := by
        show V3.dot N lt + _ = _
        rw [hNlat]
      rw [herr]
      simp only [l1e2] at hg ⊢
      simp only [Vehicle.EOM, hW, Vehicle.gwbar, Vehicle.gthetabar, Vehicle.cfpsibar,
        Vehicle.copsibar, hΩ, l00, l10, l20, l1e2, Nw, ← hgp]
      have hg' : cos (y t).gamma * 100 + 1 ≠ 0 := fun h => hg (by linarith)
      field_simp
      ring
    rw [cs, cn, cw, hNdec]
    ext <;> simp only [V3.add_x, V3.add_y, V3.add_z, V3.sub_x, V3.sub_y, V3.sub_z,
      V3.smul_x, V3.smul_y, V3.smul_z] <;> first | rfl | ring
  rw [e]
  exact hder

/-- C20 (partial): along every solution, the acceleration components along the velocity and normal to it (in the
vertical plane) are exactly those of Newton's law in the rotating frame.  The lateral component is off by the
stated relative error, which is caused by the `+1e-2` in the heading equation; hence the full law holds exactly when that
error term vanishes.  Missing: exactness of the lateral component, which is false of the code
(`C20_lateral_law_false`). -/
theorem C20_newton_partial (name : String) (P : Planet)
    (hP : Planet.init name = .ok P) (m beta LD A alpha RN : ℝ) (atm : Atmosphere) (f : ℝ → ℝ)
    (st : InitState) (hm : 0 < m) (hb : 0 < beta) (hA : 0 < A) (delta : ℝ) (y : ℝ → FState) (t : ℝ)
    (hy : SolvesAt (fun s => (Vehicle.mk' m beta LD A alpha RN P atm false f st).EOM s t delta) y t)
    (hr : (y t).r ≠ 0) (hp : cos (y t).phi ≠ 0) (hv : (y t).v ≠ 0)
    (hg : cos (y t).gamma + 1e-2 ≠ 0) (Ur Up : ℝ)
    (hUr : HasDerivAt (fun ρ => potential P.J2 P.J3 ρ (y t).phi) Ur (y t).r)
    (hUp : HasDerivAt (fun p => potential P.J2 P.J3 (y t).r p) Up (y t).phi) :
    let D := P.RP * P.rho atm ((y t).r * P.RP) (y t).theta (y t).phi * (y t).v ^ 2 / (2 * beta)
    let N := rotatingAccel P.OMEGAbar (pos (y t).r (y t).theta (y t).phi)
      (vel (y t).theta (y t).phi (y t).v (y t).psi (y t).gamma)
      (specForce D (LD * D) delta Ur Up (y t))
    let lat := lateral (y t).theta (y t).phi (y t).psi
    let err := V3.dot N lat + 2 * P.OMEGAbar * (y t).v * cos (y t).gamma * sin (y t).phi
    ∃ Acc, HasDerivV3 (fun s => vel (y s).theta (y s).phi (y s).v (y s).psi (y s).gamma) Acc t ∧
      V3.dot Acc (along (y t).theta (y t).phi (y t).psi (y t).gamma)
        = V3.dot N (along (y t).theta (y t).phi (y t).psi (y t).gamma) ∧
      V3.dot Acc (normal (y t).theta (y t).phi (y t).psi (y t).gamma)
        = V3.dot N (normal (y t).theta (y t).phi (y t).psi (y t).gamma) ∧
      V3.dot Acc lat = V3.dot N lat - 1e-2 / (cos (y t).gamma + 1e-2) * err ∧
      (Acc = N ↔ err = 0) := by
  intro D N lat err
  have h := newton_exact name P hP m beta LD A alpha RN atm f st hm hb hA delta y t hy hr hp hv hg
    Ur Up hUr hUp
  obtain ⟨t1, t2, t3, t4, t5, t6⟩ := triad_orthonormal (y t).theta (y t).phi (y t).psi (y t).gamma
  refine ⟨_, h, ?_, ?_, ?_, ?_⟩
  · rw [V3.dot_sub_smul, t5]; ring
  · rw [V3.dot_sub_smul, t6]; ring
  · rw [V3.dot_sub_smul, t3]; ring
  · constructor
    · intro hEq
      have h3 : V3.dot (N - ((1e-2:ℝ) / (cos (y t).gamma + 1e-2) * err) • lat) lat = V3.dot N lat :=
        congrArg (fun a => V3.dot a lat) hEq
      rw [V3.dot_sub_smul, t3] at h3
      have h4 : (1e-2:ℝ) / (cos (y t).gamma + 1e-2) * err = 0 := by linarith
      rcases mul_eq_zero.mp h4 with h4 | h4
      · exfalso
        rcases div_eq_zero_iff.mp h4 with h5 | h5
        · norm_num at h5
        · exact hg h5
      · exact h4
    · intro he
      have he' : V3.dot N (lateral (y t).theta (y t).phi (y t).psi)
        + 2 * P.OMEGAbar * (y t).v * cos (y t).gamma * sin (y t).phi = 0 := he
      show N - _ = N
      ext <;> simp only [V3.sub_x, V3.sub_y, V3.sub_z, V3.smul_x, V3.smul_y, V3.smul_z]
      all_goals
        rw [show V3.dot (rotatingAccel P.OMEGAbar (pos (y t).r (y t).theta (y t).phi)
          (vel (y t).theta (y t).phi (y t).v (y t).psi (y t).gamma)
          (specForce D (LD * D) delta Ur Up (y t))) (lateral (y t).theta (y t).phi (y t).psi)
          + 2 * P.OMEGAbar * (y t).v * cos (y t).gamma * sin (y t).phi = 0 from he']
        ring

/-- A straight line through a state with a prescribed slope solves the equations at that instant; hence the
pointwise hypotheses `SolvesAt` of this file can be met at every state. -/
def tangentCurve (F : FState → FState) (s : FState) (t : ℝ) : FState :=
  { r := s.r + t * (F s).r, theta := s.theta + t * (F s).theta, phi := s.phi + t * (F s).phi,
    v := s.v + t * (F s).v, psi := s.psi + t * (F s).psi, gamma := s.gamma + t * (F s).gamma,
    drange := s.drange + t * (F s).drange }

theorem tangentCurve_solves (F : FState → FState) (s : FState) :
    SolvesAt F (tangentCurve F s) 0 ∧ tangentCurve F s 0 = s := by
  have h0 : tangentCurve F s 0 = s := by simp [tangentCurve]
  have key : ∀ a b : ℝ, HasDerivAt (fun t : ℝ => a + t * b) b 0 := by
    intro a b
    have := ((hasDerivAt_id (0:ℝ)).mul_const b).const_add a
    simpa using this
  refine ⟨?_, h0⟩
  constructor <;> rw [h0] <;> exact key _ _

/-- C20 (finding): the lateral law is false of the code: for a lifting vehicle banked at 90° in level equatorial
flight at Neptune inside the atmosphere, the derivative of the velocity vector is not the one demanded by Newton's law.  -/
theorem C20_lateral_law_false : ∃ (P : Planet) (atm : Atmosphere) (st : InitState) (y : ℝ → FState)
    (delta Ur Up : ℝ),
    Planet.init "NEPTUNE" = .ok P ∧
    SolvesAt (fun s => (Vehicle.mk' 300 78 0.35 3.1416 0 1 P atm false (fun _ => 1) st).EOM s 0 delta) y 0 ∧
    (y 0).r ≠ 0 ∧ cos (y 0).phi ≠ 0 ∧ (y 0).v ≠ 0 ∧ cos (y 0).gamma + 1e-2 ≠ 0 ∧
    HasDerivAt (fun ρ => potential P.J2 P.J3 ρ (y 0).phi) Ur (y 0).r ∧
    HasDerivAt (fun p => potential P.J2 P.J3 (y 0).r p) Up (y 0).phi ∧
    ¬ HasDerivV3 (fun s => vel (y s).theta (y s).phi (y s).v (y s).psi (y s).gamma)
      (rotatingAccel P.OMEGAbar (pos (y 0).r (y 0).theta (y 0).phi)
        (vel (y 0).theta (y 0).phi (y 0).v (y 0).psi (y 0).gamma)
        (specForce (P.RP * P.rho atm ((y 0).r * P.RP) (y 0).theta (y 0).phi * (y 0).v ^ 2 / (2 * 78))
          (0.35 * (P.RP * P.rho atm ((y 0).r * P.RP) (y 0).theta (y 0).phi * (y 0).v ^ 2 / (2 * 78)))
          delta Ur Up (y 0))) 0 := by
  obtain ⟨P, hP⟩ := (C01_planet_names "NEPTUNE").1.mpr (by simp [Spec.bodies])
  have hJ3 : P.J3 = 0 := by simp [Planet.init] at hP; subst hP; rfl
  obtain ⟨_, hR, _, _, _, hTr, hTS, hST, _⟩ := C01_planet_consistent _ P hP
  let atm : Atmosphere := ⟨fun _ => 1, fun _ => 1, fun _ => 1, fun _ => 1⟩
  let st : InitState := ⟨0, 0, 0, 0, 0, 0, 0, 0⟩
  let V := Vehicle.mk' 300 78 0.35 3.1416 0 1 P atm false (fun _ => 1) st
  let s0 : FState := ⟨1, 0, 0, 1, 0, 0, 0⟩
  obtain ⟨hy, hy0⟩ := tangentCurve_solves (fun s => V.EOM s 0 (π / 2)) s0
  set y := tangentCurve (fun s => V.EOM s 0 (π / 2)) s0 with hydef
  have hG := C17_gravity_is_gradient V 1 0 one_ne_zero
  have hUr : HasDerivAt (fun ρ => potential P.J2 P.J3 ρ (y 0).phi) (V.grbar 1 0) (y 0).r := by
    rw [hy0]; exact hG.1
  have hUp : HasDerivAt (fun p => potential P.J2 P.J3 (y 0).r p) (1 * V.gphibar 1 0) (y 0).phi := by
    rw [hy0]; exact hG.2.1
  have c0 : cos (y 0).gamma + 1e-2 ≠ 0 := by rw [hy0]; simp [s0]; norm_num
  refine ⟨P, atm, st, y, π / 2, V.grbar 1 0, 1 * V.gphibar 1 0, hP, hy, by rw [hy0]; simp [s0],
    by rw [hy0]; simp [s0], by rw [hy0]; simp [s0], c0, hUr, hUp, ?_⟩
  intro hN
  obtain ⟨Acc, hAcc, _, _, _, hiff⟩ := C20_newton_partial "NEPTUNE" P hP 300 78 0.35 3.1416 0 1 atm
    (fun _ => 1) st (by norm_num) (by norm_num) (by norm_num) (π / 2) y 0 hy (by rw [hy0]; simp [s0])
    (by rw [hy0]; simp [s0]) (by rw [hy0]; simp [s0]) c0 _ _ hUr hUp
  have hEq := V3.ext (hAcc.1.unique hN.1) (hAcc.2.1.unique hN.2.1) (hAcc.2.2.unique hN.2.2)
  have herr := hiff.mp hEq
  have hg : V.gphibar 1 0 = 0 := by
    simp [Vehicle.gphibar, show V.planet.J3 = 0 from hJ3]
  have hrho : P.rho atm (1 * P.RP) 0 0 = 1 := by
    have := (C03_density_regimes P atm 0 (by linarith)).1 le_rfl (by linarith)
    simp only [Planet.rho, one_mul, sub_self]
    rw [this]
  rw [hy0, hg] at herr
  simp [s0, V3.dot, rotatingAccel, specForce, along, normal, lateral, up, north, east, horiz, V3.cross,
    spin, pos, vel] at herr
  rw [one_mul] at hrho
  rw [hrho] at herr
  norm_num at herr
  exact absurd herr hR.ne'

/-! ### C21 -/

/-- C21: the right-hand sides handed to the two integrators are the same function. -/
theorem C21_same_dynamics (V : Vehicle) (y : FState) (t t' delta : ℝ) :
    V.EOM y t delta = V.EOM2 t' y delta := rfl

/-! ### C61 -/

/-- C61: on a body with zero `J3`, at the equator, heading due east or due west, with the lift vector in the vertical
plane, the latitude and heading rates are exactly zero. -/
theorem C61_equatorial_plane_invariant (V : Vehicle) (y : FState) (t delta : ℝ)
    (hJ : V.planet.J3 = 0) (hphi : y.phi = 0) (hpsi : sin y.psi = 0) (hd : sin delta = 0) :
    (V.EOM y t delta).phi = 0 ∧ (V.EOM y t delta).psi = 0 := by
  constructor
  · simp [Vehicle.EOM, hpsi]
  · simp [Vehicle.EOM, Vehicle.a_wbar, Vehicle.gwbar, Vehicle.gthetabar, Vehicle.gphibar,
      Vehicle.cfpsibar, Vehicle.copsibar, hpsi, hphi, hd, hJ, l00]

/-- Case for `C61_equatorial_plane_invariant`: an equatorial flight at Neptune, zero bank. -/
example : ∃ P : Planet, Planet.init "NEPTUNE" = .ok P ∧
    ((Vehicle.mk' 1000 100 0.2 1 0 1 P demoAtm false (fun _ => 1) ⟨0, 0, 0, 0, 0, 0, 0, 0⟩).EOM
      ⟨1.02, 1, 0, 1.2, 0, -0.2, 0⟩ 0 0).psi = 0 := by
  obtain ⟨P, hP, -, -, -, -, -, -, hJ, -⟩ := demo_neptune
  exact ⟨P, hP, (C61_equatorial_plane_invariant _ _ 0 0 hJ rfl (by simp) (by simp)).2⟩

/-- C61: which supported bodies have zero `J3`. -/
theorem C61_bodies (name : String) (P : Planet) (hP : Planet.init name = .ok P) :
    P.J3 = 0 ↔ name ∈ ["VENUS", "JUPITER", "SATURN", "URANUS", "NEPTUNE"] := by
  have hs := (C01_planet_names name).1.mp ⟨P, hP⟩
  simp only [Spec.bodies, List.mem_cons, List.not_mem_nil, or_false] at hs
  rcases hs with rfl | rfl | rfl | rfl | rfl | rfl | rfl | rfl <;>
    · simp [Planet.init] at hP
      subst hP
      simp only [Planet.withScales, List.mem_cons, List.not_mem_nil, String.reduceEq, or_false,
        or_true, iff_false]
      try norm_num

/-- Cases for `C61_bodies`: Saturn and Mars. -/
example (P Q : Planet) (hP : Planet.init "SATURN" = .ok P) (hQ : Planet.init "MARS" = .ok Q) : P.J3 = 0 ∧ Q.J3 ≠ 0 :=
  ⟨(C61_bodies "SATURN" P hP).mpr (by simp), fun h => by simpa using (C61_bodies "MARS" Q hQ).mp h⟩

/-- C61: conversely with non-zero `J3` (EARTH, MARS, TITAN) the equatorial plane is *not* invariant: the heading
rate there is non-zero for every non-vertical flight. -/
theorem C61_nonzero_J3_leaves_plane (V : Vehicle) (y : FState) (t delta : ℝ)
    (hJ : V.planet.J3 ≠ 0) (hphi : y.phi = 0) (hpsi : y.psi = 0) (hd : sin delta = 0)
    (hr : y.r ≠ 0) (hv : y.v ≠ 0) (hg : cos y.gamma + 1e-2 ≠ 0) :
    (V.EOM y t delta).psi ≠ 0 := by
  have : (V.EOM y t delta).psi
      = (3 / 2 * V.planet.J3 / y.r ^ 5) / (y.v * (cos y.gamma + 1e-2)) := by
    simp [Vehicle.EOM, Vehicle.a_wbar, Vehicle.gwbar, Vehicle.gthetabar, Vehicle.gphibar,
      Vehicle.cfpsibar, Vehicle.copsibar, hpsi, hphi, hd, l00, l15, l10]
  rw [this]
  have h1 : (3 / 2 * V.planet.J3 / y.r ^ 5) ≠ 0 :=
    div_ne_zero (mul_ne_zero (by norm_num) hJ) (pow_ne_zero _ hr)
  exact div_ne_zero h1 (mul_ne_zero hv hg)

/-- Cases for `C61_nonzero_J3_leaves_plane`: the same flight at Mars. -/
example : ∃ P : Planet, Planet.init "MARS" = .ok P ∧
    ((Vehicle.mk' 1000 100 0.2 1 0 1 P demoAtm false (fun _ => 1) ⟨0, 0, 0, 0, 0, 0, 0, 0⟩).EOM
      ⟨1.02, 1, 0, 1.2, 0, -0.2, 0⟩ 0 0).psi ≠ 0 := by
  obtain ⟨P, hP, -⟩ := demo_mars
  refine ⟨P, hP, C61_nonzero_J3_leaves_plane _ _ 0 0 ?_ rfl rfl (by simp) (by norm_num) (by norm_num) ?_⟩
  · intro h
    simpa using (C61_bodies "MARS" P hP).mp h
  · have : 0 < cos (-0.2 : ℝ) :=
      cos_pos_of_mem_Ioo ⟨by linarith [one_le_pi_div_two], by linarith [one_le_pi_div_two]⟩
    simp only
    positivity

/-! ### C65: circular orbits -/

/-- C65: on a body with zero `J3`, in vacuum, circular equatorial motion whose inertial speed balances gravity is an
exact solution for all times: the integrator's equations leave radius, speed, latitude, heading and flight-path angle
unchanged and the longitude advances uniformly. -/
theorem C65_circular_orbit_is_solution (V : Vehicle) (delta : ℝ) (r v : ℝ) (hr : 0 < r) (hv : 0 < v)
    (hJ : V.planet.J3 = 0) (hvac : V.planet.rhobar V.atm r = fun _ _ => 0)
    (hbal : (v + V.planet.OMEGAbar * r) ^ 2 = r * (1 / r ^ 2 + 3 / 2 * V.planet.J2 / r ^ 4)) :
    ∀ t, SolvesAt (fun s => V.EOM s t delta)
      (fun s => ⟨r, v / r * s, 0, v, 0, 0, v * s⟩) t := by
  intro t
  have hL : ∀ th ph, V.Lbar r th ph v = 0 := by
    intro th ph; simp [Vehicle.Lbar, hvac]
  have hD : ∀ th ph, V.Dbar r th ph v = 0 := by
    intro th ph; simp [Vehicle.Dbar, hvac]
  have hlin : ∀ c : ℝ, HasDerivAt (fun s : ℝ => c * s) c t := by
    intro c; simpa using (hasDerivAt_id t).const_mul c
  constructor
  · refine (hasDerivAt_const t r).congr_deriv ?_
    simp [Vehicle.EOM]
  · refine (hlin (v / r)).congr_deriv ?_
    simp [Vehicle.EOM]
  · refine (hasDerivAt_const t (0:ℝ)).congr_deriv ?_
    simp [Vehicle.EOM]
  · refine (hasDerivAt_const t v).congr_deriv ?_
    simp [Vehicle.EOM, Vehicle.a_sbar, hD, Vehicle.gsbar, Vehicle.gthetabar, Vehicle.gphibar,
      Vehicle.cfvbar, l00]
  · refine (hasDerivAt_const t (0:ℝ)).congr_deriv ?_
    simp [Vehicle.EOM, Vehicle.a_wbar, hL, Vehicle.gwbar, Vehicle.gthetabar, Vehicle.gphibar,
      Vehicle.cfpsibar, Vehicle.copsibar, hJ, l00]
  · refine (hasDerivAt_const t (0:ℝ)).congr_deriv ?_
    simp [Vehicle.EOM, Vehicle.a_nbar, hL, Vehicle.gnbar, Vehicle.gthetabar, Vehicle.grbar,
      Vehicle.cfgammabar, Vehicle.cogammabar, hJ, l00, l10, l15, l20]
    field_simp at hbal ⊢
    linarith
  · refine (hlin v).congr_deriv ?_
    simp [Vehicle.EOM]

/-- Non-vacuity of C65: one radius above the surface of Uranus there is such an orbit. -/
theorem C65_orbit_exists : ∃ (P : Planet) (V : Vehicle) (r v : ℝ), Planet.init "URANUS" = .ok P ∧
    V.planet = P ∧ 0 < r ∧ 0 < v ∧ V.planet.J3 = 0 ∧ V.planet.rhobar V.atm r = (fun _ _ => 0) ∧
    (v + V.planet.OMEGAbar * r) ^ 2 = r * (1 / r ^ 2 + 3 / 2 * V.planet.J2 / r ^ 4) ∧
    V = Vehicle.mk' 300 78 0.35 3.1416 0 1 P ⟨fun _ => 1, fun _ => 1, fun _ => 1, fun _ => 1⟩ false (fun _ => 1)
      ⟨0, 0, 0, 0, 0, 0, 0, 0⟩ ∧ P.hThres < P.computeH (r * P.RP) := by
  obtain ⟨P, hP⟩ := (C01_planet_names "URANUS").1.mpr (by simp [Spec.bodies])
  have hJ3 : P.J3 = 0 := by simp [Planet.init] at hP; subst hP; rfl
  have hth : P.hThres = 1500e3 := by simp [Planet.init] at hP; subst hP; rfl
  have hRP : P.RP = 25559e3 := by simp [Planet.init] at hP; subst hP; rfl
  have hOm : P.OMEGA = -1.01237e-4 := by simp [Planet.init] at hP; subst hP; rfl
  have hJ2 : P.J2 = 3343.3e-6 := by simp [Planet.init] at hP; subst hP; rfl
  obtain ⟨_, _, _, _, _, _, _, _, _, htau, _, _, hOb, _⟩ := C01_planet_consistent _ P hP
  have hOb' : P.OMEGAbar < 0 := by
    rw [hOb, hOm]; exact mul_neg_of_neg_of_pos (by norm_num) htau
  let atm : Atmosphere := ⟨fun _ => 1, fun _ => 1, fun _ => 1, fun _ => 1⟩
  let V := Vehicle.mk' 300 78 0.35 3.1416 0 1 P atm false (fun _ => 1) ⟨0, 0, 0, 0, 0, 0, 0, 0⟩
  have hpos : (0:ℝ) ≤ 2 * (1 / 2 ^ 2 + 3 / 2 * P.J2 / 2 ^ 4) := by rw [hJ2]; norm_num
  refine ⟨P, V, 2, √(2 * (1 / 2 ^ 2 + 3 / 2 * P.J2 / 2 ^ 4)) - P.OMEGAbar * 2, hP, rfl, by norm_num,
    ?_, hJ3, ?_, ?_, rfl, ?_⟩
  · have := Real.sqrt_nonneg (2 * (1 / 2 ^ 2 + 3 / 2 * P.J2 / 2 ^ 4)); linarith
  · funext th ph
    have h1 : P.hThres < 2 * P.RP - P.RP := by rw [hth, hRP]; norm_num
    have h2 : P.density atm (2 * P.RP - P.RP) = 0 :=
      (C03_density_regimes P atm _ (by rw [hth]; norm_num)).2.1 h1
    show P.density atm (2 * P.RP - P.RP) / P.rho0 = 0
    rw [h2, zero_div]
  · show (√(2 * (1 / 2 ^ 2 + 3 / 2 * P.J2 / 2 ^ 4)) - P.OMEGAbar * 2 + P.OMEGAbar * 2) ^ 2 = _
    rw [sub_add_cancel, Real.sq_sqrt hpos]
    rfl
  · show P.hThres < 2 * P.RP - P.RP
    rw [hth, hRP]; norm_num

/-- Cases for `C65_circular_orbit_is_solution`, `C66_mirror_trajectory`, `C19_kinematics` and
`C18_jacobi_rate`: that orbit. -/
example : ∃ (V : Vehicle) (r v : ℝ), Planet.init "URANUS" = .ok V.planet ∧ 0 < r ∧ 0 < v ∧
    (∀ t, SolvesAt (fun s => V.EOM s t 0) (fun s => ⟨r, v / r * s, 0, v, 0, 0, v * s⟩) t) ∧
    (∀ t, HasDerivV3 (fun s => pos r (v / r * s) 0) (vel (v / r * t) 0 v 0 0) t) ∧
    (∀ t, HasDerivAt (fun _ : ℝ => jacobi V.planet.J2 V.planet.J3 V.planet.OMEGAbar r 0 v)
      (v * V.a_sbar r (v / r * t) 0 v 0) t) := by
  obtain ⟨P, V, r, v, hP, hV, hr, hv, hJ, hvac, hbal, -⟩ := C65_orbit_exists
  have hs := C65_circular_orbit_is_solution V 0 r v hr hv hJ hvac hbal
  exact ⟨V, r, v, by rw [hV]; exact hP, hr, hv, hs, fun t => (C19_kinematics V 0 _ t (hs t) hr.ne' (by simp)).1,
    fun t => C18_jacobi_rate V 0 _ t (hs t) hr.ne'⟩

/-- Case for `C18_energy_constant_in_vacuum`: that orbit meets its hypotheses for a day. -/
example : ∃ (P : Planet) (r v : ℝ), Planet.init "URANUS" = .ok P ∧ 0 < v ∧ ∀ t ∈ Set.Icc (0:ℝ) 86400,
    P.hThres < P.computeH (r * P.RP) ∧
    SolvesAt (fun s => (Vehicle.mk' 300 78 0.35 3.1416 0 1 P ⟨fun _ => 1, fun _ => 1, fun _ => 1, fun _ => 1⟩ false
      (fun _ => 1) ⟨0, 0, 0, 0, 0, 0, 0, 0⟩).EOM s t 0) (fun s => ⟨r, v / r * s, 0, v, 0, 0, v * s⟩) t := by
  obtain ⟨P, V, r, v, hP, hV, hr, hv, hJ, hvac, hbal, rfl, hth⟩ := C65_orbit_exists
  exact ⟨P, r, v, hP, hv, fun t _ => ⟨hth, C65_circular_orbit_is_solution _ 0 r v hr hv hJ hvac hbal t⟩⟩

/-! ### C66: symmetries of the equations of motion -/

/-- Reflection of a flight state in the equatorial plane. -/
def mirror (y : FState) : FState := { y with phi := -y.phi, psi := -y.psi }

/-- C66: the rates do not depend on longitude, range flown, or time. -/
theorem C66_longitude_time_invariant (V : Vehicle) (y : FState) (t t' delta th dr : ℝ) :
    V.EOM { y with theta := th, drange := dr } t delta = V.EOM y t' delta := rfl

/-- C66: on a body with zero `J3`, flying the mirrored state with the opposite bank angle gives the mirrored rates:
north and south are interchangeable. -/
theorem C66_mirror (V : Vehicle) (y : FState) (t delta : ℝ) (hJ : V.planet.J3 = 0) :
    V.EOM (mirror y) t (-delta) = mirror (V.EOM y t delta) := by
  have hL : V.Lbar y.r y.theta (-y.phi) y.v = V.Lbar y.r y.theta y.phi y.v := rfl
  have hD : V.Dbar y.r y.theta (-y.phi) y.v = V.Dbar y.r y.theta y.phi y.v := rfl
  simp only [mirror, Vehicle.EOM, Vehicle.a_sbar, Vehicle.a_nbar, Vehicle.a_wbar, Vehicle.gsbar, Vehicle.gnbar,
    Vehicle.gwbar, Vehicle.grbar, Vehicle.gthetabar, Vehicle.gphibar, Vehicle.cfvbar, Vehicle.cfpsibar,
    Vehicle.cfgammabar, Vehicle.copsibar, Vehicle.cogammabar, hL, hD, hJ, sin_neg, cos_neg, tan_neg, l00, l10,
    l15, l20, l30, l50, FState.mk.injEq]
  refine ⟨?_, ?_, ?_, ?_, ?_, ?_, ?_⟩ <;> first | trivial | ring

/-- Case for `C66_mirror`: a vehicle at Neptune north of the equator flying north-east, banked by 0.5. -/
example : ∃ P : Planet, Planet.init "NEPTUNE" = .ok P ∧
    (Vehicle.mk' 1000 100 0.2 1 0 1 P demoAtm false (fun _ => 1) ⟨0, 0, 0, 0, 0, 0, 0, 0⟩).EOM
      (mirror ⟨1.02, 1, 0.3, 1.2, 0.7, -0.2, 0⟩) 0 (-0.5) =
    mirror ((Vehicle.mk' 1000 100 0.2 1 0 1 P demoAtm false (fun _ => 1) ⟨0, 0, 0, 0, 0, 0, 0, 0⟩).EOM
      ⟨1.02, 1, 0.3, 1.2, 0.7, -0.2, 0⟩ 0 0.5) := by
  obtain ⟨P, hP, -, -, -, -, -, -, hJ, -⟩ := demo_neptune
  exact ⟨P, hP, C66_mirror _ _ 0 0.5 hJ⟩

/-- C66 for whole trajectories: the mirror image of a solution is a solution with the bank angle reversed. -/
theorem C66_mirror_trajectory (V : Vehicle) (y : ℝ → FState) (t delta : ℝ) (hJ : V.planet.J3 = 0)
    (hy : SolvesAt (fun s => V.EOM s t delta) y t) :
    SolvesAt (fun s => V.EOM s t (-delta)) (fun s => mirror (y s)) t := by
  have hm := C66_mirror V (y t) t delta hJ
  obtain ⟨h1, h2, h3, h4, h5, h6, h7⟩ := hy
  constructor <;> simp only [hm] <;> simp only [mirror]
  · exact h1
  · exact h2
  · exact h3.neg
  · exact h4
  · exact h5.neg
  · exact h6
  · exact h7

/-- Case for `C66_mirror_trajectory`: the orbit of `C65_orbit_exists`. -/
example : ∃ (V : Vehicle) (y : ℝ → FState), Planet.init "URANUS" = .ok V.planet ∧
    ∀ t, SolvesAt (fun s => V.EOM s t (-0.5)) (fun s => mirror (y s)) t := by
  obtain ⟨P, V, r, v, hP, hV, hr, hv, hJ, hvac, hbal, -⟩ := C65_orbit_exists
  exact ⟨V, _, by rw [hV]; exact hP, fun t => C66_mirror_trajectory V _ t 0.5 hJ
    (C65_circular_orbit_is_solution V 0.5 r v hr hv hJ hvac hbal t)⟩

/-- C66 (finding): with `J3 ≠ 0` the mirror symmetry fails at every equatorial level-flight state. -/
theorem C66_mirror_fails_with_J3 (V : Vehicle) (hJ : V.planet.J3 ≠ 0) :
    ∃ y delta, V.EOM (mirror y) 0 (-delta) ≠ mirror (V.EOM y 0 delta) := by
  refine ⟨⟨1, 0, 0, 1, 0, 0, 0⟩, 0, fun h => ?_⟩
  have h0 : mirror ⟨1, 0, 0, 1, 0, 0, 0⟩ = ⟨1, 0, 0, 1, 0, 0, 0⟩ := by simp [mirror]
  rw [h0, neg_zero] at h
  have h1 := congrArg FState.psi h
  simp only [mirror] at h1
  have h2 : (V.EOM ⟨1, 0, 0, 1, 0, 0, 0⟩ 0 0).psi = 0 := by linarith
  exact C61_nonzero_J3_leaves_plane V ⟨1, 0, 0, 1, 0, 0, 0⟩ 0 0 hJ rfl rfl (by simp) (by simp) (by simp)
    (by simp; norm_num) h2

/-- Case for `C66_mirror_fails_with_J3`: Mars. -/
example : ∃ (V : Vehicle) (y : FState) (delta : ℝ), Planet.init "MARS" = .ok V.planet ∧
    V.EOM (mirror y) 0 (-delta) ≠ mirror (V.EOM y 0 delta) := by
  obtain ⟨P, hP, -⟩ := demo_mars
  obtain ⟨y, delta, h⟩ := C66_mirror_fails_with_J3
    (Vehicle.mk' 1000 100 0.2 1 0 1 P demoAtm false (fun _ => 1) ⟨0, 0, 0, 0, 0, 0, 0, 0⟩)
    (fun h => by simpa using (C61_bodies "MARS" P hP).mp h)
  exact ⟨_, y, delta, hP, h⟩

end AMAT.Props
