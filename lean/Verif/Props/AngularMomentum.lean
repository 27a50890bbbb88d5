import Verif.Props.Dynamics

/-
Property C97: the angular momentum about the axis of the planet.
-/

noncomputable section

open Real

namespace AMAT.Spec

/-- Angular momentum about the polar axis, per unit mass and in a frame that does not rotate: `X` and `W` are
position and velocity relative to the planet, which spins with `Omega`. -/
def axialMomentum (Omega : ℝ) (X W : V3) : ℝ := (V3.cross X (W + V3.cross (spin Omega) X)).z

/-- Torque about the polar axis of the force `F` acting at `X`. -/
def axialTorque (X F : V3) : ℝ := (V3.cross X F).z

/-- Drag and lift per unit mass, the lift rolled by the bank angle. -/
def aeroForce (D L delta : ℝ) (s : FState) : V3 :=
  (-D) • along s.theta s.phi s.psi s.gamma
    + (L * cos delta) • normal s.theta s.phi s.psi s.gamma
    + (L * sin delta) • lateral s.theta s.phi s.psi

/-- Axial angular momentum of a flight state. -/
def stateMomentum (Omega : ℝ) (s : FState) : ℝ :=
  axialMomentum Omega (pos s.r s.theta s.phi) (vel s.theta s.phi s.v s.psi s.gamma)

end AMAT.Spec

namespace AMAT.Props

open Real AMAT AMAT.Spec

/-- The axial angular momentum in terms of the variables of the integrator. -/
theorem stateMomentum_eq (Om : ℝ) (s : FState) :
    stateMomentum Om s = s.r * cos s.phi * (s.v * cos s.gamma * cos s.psi + Om * (s.r * cos s.phi)) := by
  have h1 := sin_sq_add_cos_sq s.theta
  simp only [stateMomentum, axialMomentum, pos, vel, along, horiz, up, east, north, spin, V3.cross, V3.add_x,
    V3.add_y, V3.smul_x, V3.smul_y]
  grind

/-- Rate of the axial momentum in a rotating frame: the fictitious forces drop out. -/
theorem axial_rate {X W : ℝ → V3} {A : V3} {t Om : ℝ} (hX : HasDerivV3 X (W t) t) (hW : HasDerivV3 W A t) :
    HasDerivAt (fun s => axialMomentum Om (X s) (W s))
      (axialTorque (X t) (A + (2 : ℝ) • V3.cross (spin Om) (W t)
        + V3.cross (spin Om) (V3.cross (spin Om) (X t)))) t := by
  obtain ⟨x1, x2, -⟩ := hX
  obtain ⟨w1, w2, -⟩ := hW
  have h := (x1.mul (w2.add (x1.const_mul Om))).sub (x2.mul (w1.sub (x2.const_mul Om)))
  refine (h.congr_deriv ?_).congr_of_eventuallyEq (Filter.Eventually.of_forall fun s => ?_)
  · simp only [axialTorque, V3.cross, spin, V3.add_x, V3.add_y, V3.smul_x, V3.smul_y, Pi.add_apply, Pi.sub_apply]
    ring
  · simp only [axialMomentum, V3.cross, spin, V3.add_x, V3.add_y, Pi.add_apply, Pi.sub_apply, Pi.mul_apply]
    ring

/-- C97 (partial): along every flight the angular momentum about the axis of the planet changes at the rate of the
axial torque of drag and lift, up to a term caused by the regularisation `+1e-2` of the heading equation; it is
exactly the torque when and only when this term vanishes.  Missing: exactness, which is false of the code
(`C97_not_conserved`). -/
theorem C97_momentum_rate_partial (name : String) (P : Planet)
    (hP : Planet.init name = .ok P) (m beta LD A alpha RN : ℝ) (atm : Atmosphere) (f : ℝ → ℝ)
    (st : InitState) (hm : 0 < m) (hb : 0 < beta) (hA : 0 < A) (delta : ℝ) (y : ℝ → FState) (t : ℝ)
    (hy : SolvesAt (fun s => (Vehicle.mk' m beta LD A alpha RN P atm false f st).EOM s t delta) y t)
    (hr : (y t).r ≠ 0) (hp : cos (y t).phi ≠ 0) (hv : (y t).v ≠ 0)
    (hg : cos (y t).gamma + 1e-2 ≠ 0) (Ur Up : ℝ)
    (hUr : HasDerivAt (fun ρ => potential P.J2 P.J3 ρ (y t).phi) Ur (y t).r)
    (hUp : HasDerivAt (fun p => potential P.J2 P.J3 (y t).r p) Up (y t).phi) :
    let D := P.RP * P.rho atm ((y t).r * P.RP) (y t).theta (y t).phi * (y t).v ^ 2 / (2 * beta)
    let X := pos (y t).r (y t).theta (y t).phi
    let lat := lateral (y t).theta (y t).phi (y t).psi
    let N := rotatingAccel P.OMEGAbar X (vel (y t).theta (y t).phi (y t).v (y t).psi (y t).gamma)
      (specForce D (LD * D) delta Ur Up (y t))
    let err := V3.dot N lat + 2 * P.OMEGAbar * (y t).v * cos (y t).gamma * sin (y t).phi
    let torque := axialTorque X (aeroForce D (LD * D) delta (y t))
    HasDerivAt (fun s => stateMomentum P.OMEGAbar (y s))
      (torque + 1e-2 / (cos (y t).gamma + 1e-2) * err * ((y t).r * cos (y t).phi * sin (y t).psi)) t ∧
    (HasDerivAt (fun s => stateMomentum P.OMEGAbar (y s)) torque t ↔ err * sin (y t).psi = 0) := by
  intro D X lat N err torque
  have hV := newton_exact name P hP m beta LD A alpha RN atm f st hm hb hA delta y t hy hr hp hv hg Ur Up hUr hUp
  have hX := (C19_kinematics _ delta y t hy hr hp).1
  have h := axial_rate (Om := P.OMEGAbar) hX hV
  have hmain : HasDerivAt (fun s => stateMomentum P.OMEGAbar (y s))
      (torque + 1e-2 / (cos (y t).gamma + 1e-2) * err * ((y t).r * cos (y t).phi * sin (y t).psi)) t := by
    refine h.congr_deriv ?_
    have hN : V3.dot (rotatingAccel P.OMEGAbar (pos (y t).r (y t).theta (y t).phi)
        (vel (y t).theta (y t).phi (y t).v (y t).psi (y t).gamma)
        (specForce D (LD * D) delta Ur Up (y t))) (lateral (y t).theta (y t).phi (y t).psi)
        + 2 * P.OMEGAbar * (y t).v * cos (y t).gamma * sin (y t).phi = err := rfl
    show axialTorque X _ = _
    rw [hN]
    generalize err = e
    generalize 1e-2 / (cos (y t).gamma + 1e-2) = c
    have h1 := sin_sq_add_cos_sq (y t).theta
    simp only [torque, X, axialTorque, aeroForce, rotatingAccel, specForce, pos, vel, along, normal, lateral, horiz, up,
      east, north, spin, V3.cross, V3.add_x, V3.add_y, V3.sub_x, V3.sub_y, V3.smul_x, V3.smul_y]
    generalize sin (y t).theta = a at *
    generalize cos (y t).theta = b at *
    linear_combination (c * e * (y t).r * cos (y t).phi * sin (y t).psi) * h1
  refine ⟨hmain, ?_⟩
  constructor
  · intro h'
    have := hmain.unique h'
    have h2 : 1e-2 / (cos (y t).gamma + 1e-2) * err * ((y t).r * cos (y t).phi * sin (y t).psi) = 0 := by
      linarith
    have h3 : (1e-2 : ℝ) / (cos (y t).gamma + 1e-2) ≠ 0 := div_ne_zero (by norm_num) hg
    have h4 : (1e-2 / (cos (y t).gamma + 1e-2) * ((y t).r * cos (y t).phi)) * (err * sin (y t).psi) = 0 := by
      rw [← h2]; ring
    exact (mul_eq_zero.mp h4).resolve_left (mul_ne_zero h3 (mul_ne_zero hr hp))
  · intro h0
    refine hmain.congr_deriv ?_
    have : 1e-2 / (cos (y t).gamma + 1e-2) * err * ((y t).r * cos (y t).phi * sin (y t).psi)
        = 1e-2 / (cos (y t).gamma + 1e-2) * ((y t).r * cos (y t).phi) * (err * sin (y t).psi) := by ring
    rw [this, h0, mul_zero, add_zero]

/-- The axial torque of drag and lift in terms of the variables of the integrator. -/
theorem axialTorque_aero (D L delta : ℝ) (s : FState) :
    axialTorque (pos s.r s.theta s.phi) (aeroForce D L delta s) = s.r * cos s.phi *
      (-(D * cos s.gamma * cos s.psi) - L * cos delta * sin s.gamma * cos s.psi - L * sin delta * sin s.psi) := by
  have h1 := sin_sq_add_cos_sq s.theta
  simp only [axialTorque, aeroForce, pos, along, normal, lateral, horiz, up, east, north, V3.cross, V3.add_x,
    V3.add_y, V3.smul_x, V3.smul_y]
  linear_combination (s.r * cos s.phi * (-(D * cos s.gamma * cos s.psi) - L * cos delta * sin s.gamma * cos s.psi
    - L * sin delta * sin s.psi)) * h1

/-- C97: flying due east or due west the rate of the axial angular momentum is exactly the torque of drag and
lift. -/
theorem C97_east_west (name : String) (P : Planet)
    (hP : Planet.init name = .ok P) (m beta LD A alpha RN : ℝ) (atm : Atmosphere) (f : ℝ → ℝ)
    (st : InitState) (hm : 0 < m) (hb : 0 < beta) (hA : 0 < A) (delta : ℝ) (y : ℝ → FState) (t : ℝ)
    (hy : SolvesAt (fun s => (Vehicle.mk' m beta LD A alpha RN P atm false f st).EOM s t delta) y t)
    (hr : (y t).r ≠ 0) (hp : cos (y t).phi ≠ 0) (hv : (y t).v ≠ 0)
    (hg : cos (y t).gamma + 1e-2 ≠ 0) (hpsi : sin (y t).psi = 0) :
    HasDerivAt (fun s => stateMomentum P.OMEGAbar (y s))
      (axialTorque (pos (y t).r (y t).theta (y t).phi) (aeroForce
        (P.RP * P.rho atm ((y t).r * P.RP) (y t).theta (y t).phi * (y t).v ^ 2 / (2 * beta))
        (LD * (P.RP * P.rho atm ((y t).r * P.RP) (y t).theta (y t).phi * (y t).v ^ 2 / (2 * beta)))
        delta (y t))) t := by
  have hG := C17_gravity_is_gradient (Vehicle.mk' m beta LD A alpha RN P atm false f st) (y t).r (y t).phi hr
  exact (C97_momentum_rate_partial name P hP m beta LD A alpha RN atm f st hm hb hA delta y t hy hr hp hv hg _ _
    hG.1 hG.2.1).2.mpr (by rw [hpsi, mul_zero])

/-- C97: above the atmosphere a flight due east or due west keeps its axial angular momentum. -/
theorem C97_conserved_in_vacuum (name : String) (P : Planet)
    (hP : Planet.init name = .ok P) (m beta LD A alpha RN : ℝ) (atm : Atmosphere) (f : ℝ → ℝ)
    (st : InitState) (hm : 0 < m) (hb : 0 < beta) (hA : 0 < A) (delta : ℝ → ℝ) (y : ℝ → FState) (a b : ℝ)
    (hy : ∀ t ∈ Set.Icc a b,
      SolvesAt (fun s => (Vehicle.mk' m beta LD A alpha RN P atm false f st).EOM s t (delta t)) y t)
    (hr : ∀ t ∈ Set.Icc a b, P.hThres < P.computeH ((y t).r * P.RP))
    (hp : ∀ t ∈ Set.Icc a b, cos (y t).phi ≠ 0) (hv : ∀ t ∈ Set.Icc a b, (y t).v ≠ 0)
    (hg : ∀ t ∈ Set.Icc a b, cos (y t).gamma + 1e-2 ≠ 0) (hpsi : ∀ t ∈ Set.Icc a b, sin (y t).psi = 0) :
    ∀ t ∈ Set.Icc a b, stateMomentum P.OMEGAbar (y t) = stateMomentum P.OMEGAbar (y a) := by
  obtain ⟨_, hR, _, _, _, hTr, hTS, hST, _⟩ := C01_planet_consistent name P hP
  have hT : 0 ≤ P.hThres := by linarith
  have hd : ∀ t ∈ Set.Icc a b, HasDerivAt (fun s => stateMomentum P.OMEGAbar (y s)) 0 t := by
    intro t ht
    have hr0 : (y t).r ≠ 0 := by
      intro h0
      have := hr t ht
      simp only [Planet.computeH, h0] at this
      linarith
    refine (C97_east_west name P hP m beta LD A alpha RN atm f st hm hb hA (delta t) y t (hy t ht) hr0 (hp t ht)
      (hv t ht) (hg t ht) (hpsi t ht)).congr_deriv ?_
    have h0 : P.rho atm ((y t).r * P.RP) (y t).theta (y t).phi = 0 :=
      (C03_density_regimes P atm _ hT).2.1 (hr t ht)
    rw [axialTorque_aero, h0]
    ring
  intro t ht
  have hsub : Set.Icc a t ⊆ Set.Icc a b := Set.Icc_subset_Icc_right ht.2
  exact constant_of_has_deriv_right_zero (f := fun s => stateMomentum P.OMEGAbar (y s)) (a := a) (b := t)
    (fun s hs => (hd s (hsub hs)).continuousAt.continuousWithinAt)
    (fun s hs => (hd s (hsub (Set.Ico_subset_Icc_self hs))).hasDerivWithinAt) t ⟨ht.1, le_rfl⟩

/-- C97: a ballistic vehicle flying due east through a non-negative atmosphere never gains axial angular
momentum. -/
theorem C97_drag_takes_momentum (name : String) (P : Planet)
    (hP : Planet.init name = .ok P) (m beta A alpha RN : ℝ) (atm : Atmosphere) (f : ℝ → ℝ)
    (st : InitState) (hm : 0 < m) (hb : 0 < beta) (hA : 0 < A) (delta : ℝ → ℝ) (y : ℝ → FState) (a b : ℝ)
    (hatm : ∀ h, 0 ≤ h → h ≤ P.hThres → 0 ≤ atm.densityInt h)
    (hy : ∀ t ∈ Set.Icc a b,
      SolvesAt (fun s => (Vehicle.mk' m beta 0 A alpha RN P atm false f st).EOM s t (delta t)) y t)
    (hr : ∀ t ∈ Set.Icc a b, 0 < (y t).r) (hp : ∀ t ∈ Set.Icc a b, 0 < cos (y t).phi)
    (hv : ∀ t ∈ Set.Icc a b, (y t).v ≠ 0) (hg : ∀ t ∈ Set.Icc a b, 0 ≤ cos (y t).gamma)
    (hpsi : ∀ t ∈ Set.Icc a b, cos (y t).psi = 1) :
    AntitoneOn (fun s => stateMomentum P.OMEGAbar (y s)) (Set.Icc a b) := by
  have hd := fun t ht => C97_east_west name P hP m beta 0 A alpha RN atm f st hm hb hA (delta t) y t (hy t ht)
    (hr t ht).ne' (hp t ht).ne' (hv t ht) (by have := hg t ht; positivity) (by
      have := sin_sq_add_cos_sq (y t).psi
      rw [hpsi t ht] at this
      nlinarith)
  apply antitoneOn_of_deriv_nonpos (convex_Icc a b)
  · exact fun t ht => (hd t ht).continuousAt.continuousWithinAt
  · intro t ht
    rw [interior_Icc] at ht
    exact (hd t (Set.Ioo_subset_Icc_self ht)).differentiableAt.differentiableWithinAt
  · intro t ht
    rw [interior_Icc] at ht
    have ht' := Set.Ioo_subset_Icc_self ht
    rw [(hd t ht').deriv, axialTorque_aero, hpsi t ht']
    obtain ⟨_, hR, _⟩ := C01_planet_consistent name P hP
    have h1 := (C03_density_nonneg name P hP atm hatm ((y t).r * P.RP) (y t).theta (y t).phi).1
    have h2 := hg t ht'
    have h3 := hr t ht'
    have h4 := hp t ht'
    have h5 : 0 ≤ (y t).r * cos (y t).phi * (P.RP * P.rho atm ((y t).r * P.RP) (y t).theta (y t).phi
      * (y t).v ^ 2 / (2 * beta) * cos (y t).gamma) := by positivity
    linarith

/-- Case for `C97_east_west` and `C97_conserved_in_vacuum`: the circular orbit of `C65_orbit_exists` around Uranus,
for a day. -/
example : ∃ (P : Planet) (r v : ℝ), Planet.init "URANUS" = .ok P ∧ 0 < r ∧ 0 < v ∧ ∀ t ∈ Set.Icc (0:ℝ) 86400,
    stateMomentum P.OMEGAbar ⟨r, v / r * t, 0, v, 0, 0, v * t⟩ =
      stateMomentum P.OMEGAbar ⟨r, v / r * 0, 0, v, 0, 0, v * 0⟩ := by
  obtain ⟨P, V, r, v, hP, hV, hr, hv, hJ, hvac, hbal, rfl, hth⟩ := C65_orbit_exists
  refine ⟨P, r, v, hP, hr, hv, ?_⟩
  have hs := C65_circular_orbit_is_solution _ 0 r v hr hv hJ hvac hbal
  exact C97_conserved_in_vacuum "URANUS" P hP 300 78 0.35 3.1416 0 1 _ _ _ (by norm_num) (by norm_num)
    (by norm_num) (fun _ => 0) _ 0 86400 (fun t _ => hs t) (fun _ _ => hth) (fun _ _ => by simp)
    (fun _ _ => hv.ne') (fun _ _ => by simp; norm_num) (fun _ _ => by simp)

/-- C97 (finding): above the atmosphere the angular momentum about the axis is not conserved by the code's equations
of motion: a vehicle two radii from the centre of Neptune, climbing at 45° towards the north, has a non-zero rate
of axial angular momentum although no force with an axial torque acts. -/
theorem C97_not_conserved : ∃ (P : Planet) (atm : Atmosphere) (st : InitState) (y : ℝ → FState) (rate : ℝ),
    Planet.init "NEPTUNE" = .ok P ∧ P.hThres < P.computeH ((y 0).r * P.RP) ∧
    SolvesAt (fun s => (Vehicle.mk' 300 78 0.35 3.1416 0 1 P atm false (fun _ => 1) st).EOM s 0 0) y 0 ∧
    HasDerivAt (fun s => stateMomentum P.OMEGAbar (y s)) rate 0 ∧ rate ≠ 0 := by
  obtain ⟨P, hP⟩ := (C01_planet_names "NEPTUNE").1.mpr (by simp [Spec.bodies])
  have hJ3 : P.J3 = 0 := by simp [Planet.init] at hP; subst hP; rfl
  have hth : P.hThres = 1000e3 := by simp [Planet.init] at hP; subst hP; rfl
  have hRP : P.RP = 24622e3 := by simp [Planet.init] at hP; subst hP; rfl
  have hOm : P.OMEGA = 1.083385e-4 := by simp [Planet.init] at hP; subst hP; rfl
  obtain ⟨_, _, _, _, _, _, _, _, _, htau, _, _, hOb, _⟩ := C01_planet_consistent _ P hP
  have hOb' : 0 < P.OMEGAbar := by
    rw [hOb, hOm]; exact mul_pos (by norm_num) htau
  let atm : Atmosphere := ⟨fun _ => 1, fun _ => 1, fun _ => 1, fun _ => 1⟩
  let st : InitState := ⟨0, 0, 0, 0, 0, 0, 0, 0⟩
  let V := Vehicle.mk' 300 78 0.35 3.1416 0 1 P atm false (fun _ => 1) st
  let s0 : FState := ⟨2, 0, 0, 1, π / 2, π / 4, 0⟩
  obtain ⟨hy, hy0⟩ := tangentCurve_solves (fun s => V.EOM s 0 0) s0
  set y := tangentCurve (fun s => V.EOM s 0 0) s0 with hydef
  have hG := C17_gravity_is_gradient V 2 0 two_ne_zero
  have hUr : HasDerivAt (fun ρ => potential P.J2 P.J3 ρ (y 0).phi) (V.grbar 2 0) (y 0).r := by
    rw [hy0]; exact hG.1
  have hUp : HasDerivAt (fun p => potential P.J2 P.J3 (y 0).r p) (2 * V.gphibar 2 0) (y 0).phi := by
    rw [hy0]; exact hG.2.1
  have hgp : V.gphibar 2 0 = 0 := by
    simp [Vehicle.gphibar, show V.planet.J3 = 0 from hJ3]
  have hq : 0 < cos (π / 4) := cos_pos_of_mem_Ioo ⟨by linarith [pi_pos], by linarith [pi_pos]⟩
  have hqs : 0 < sin (π / 4) := sin_pos_of_pos_of_lt_pi (by linarith [pi_pos]) (by linarith [pi_pos])
  have c0 : cos (y 0).gamma + 1e-2 ≠ 0 := by rw [hy0]; show cos (π / 4) + 1e-2 ≠ 0; positivity
  have habove : P.hThres < P.computeH (2 * P.RP) := by
    show P.hThres < 2 * P.RP - P.RP
    rw [hth, hRP]; norm_num
  have hrho : P.rho atm (2 * P.RP) 0 0 = 0 :=
    (C03_density_regimes P atm _ (by rw [hth]; norm_num)).2.1 habove
  have h := (C97_momentum_rate_partial "NEPTUNE" P hP 300 78 0.35 3.1416 0 1 atm (fun _ => 1) st (by norm_num)
    (by norm_num) (by norm_num) 0 y 0 hy (by rw [hy0]; simp [s0]) (by rw [hy0]; simp [s0]) (by rw [hy0]; simp [s0])
    c0 _ _ hUr hUp).1
  refine ⟨P, atm, st, y, _, hP, by rw [hy0]; exact habove, hy, h, ?_⟩
  rw [axialTorque_aero, hgp, hy0]
  have : P.rho atm (s0.r * P.RP) s0.theta s0.phi = 0 := hrho
  rw [this]
  simp [s0, V3.dot, rotatingAccel, specForce, along, normal, lateral, up, north, east, horiz, V3.cross,
    spin, pos, vel]
  exact ⟨⟨by norm_num, by positivity⟩, hOb'.ne'⟩

end AMAT.Props
