import Verif.Props.AngularMomentum

/-
Vehicles with a drag coefficient given as a function of the Mach number (`userDefinedCDMach`): at every instant they
move as the vehicle of constant drag coefficient that has the current one.  With this the laws C18, C20 and C97 extend
to them.
-/

noncomputable section

open Classical

namespace AMAT.Spec

/-- The ballistic coefficient of a vehicle of mass `m` and area `A` while its drag coefficient is `c`. -/
def currentBeta (m A c : ℝ) : ℝ := m / (c * A)

/-- The lift-to-drag ratio while the drag coefficient is `c`, of a vehicle whose lift coefficient is that of the
declared ballistic coefficient and lift-to-drag ratio. -/
def currentLD (m beta LD A c : ℝ) : ℝ := LD * (m / (beta * A)) / c

end AMAT.Spec

namespace AMAT.Props

open AMAT Real AMAT.Lits AMAT.Spec AMAT.Frames

/-- At a state with drag coefficient `c > 0` the equations of motion are those of the constant vehicle with the current
ballistic coefficient and lift-to-drag ratio. -/
theorem curve_EOM (P : Planet) (m beta LD A alpha RN : ℝ) (atm : Atmosphere) (f : ℝ → ℝ) (st : InitState)
    (hm : 0 < m) (hA : 0 < A) (s : FState) (t delta c : ℝ) (hc : 0 < c)
    (hf : f ((Vehicle.mk' m beta LD A alpha RN P atm true f st).machScalar (s.r * P.RP) (s.v * P.Vref)) = c) :
    (Vehicle.mk' m beta LD A alpha RN P atm true f st).EOM s t delta =
      (Vehicle.mk' m (currentBeta m A c) (currentLD m beta LD A c) A alpha RN P atm false f st).EOM s t delta := by
  have e : m / (currentBeta m A c * A) = c := by
    unfold currentBeta
    field_simp
  have hD : (Vehicle.mk' m beta LD A alpha RN P atm true f st).Dbar s.r s.theta s.phi s.v =
      (Vehicle.mk' m (currentBeta m A c) (currentLD m beta LD A c) A alpha RN P atm false f st).Dbar s.r s.theta s.phi
        s.v := by
    have h1 : f ((Vehicle.mk' m beta LD A alpha RN P atm true f st).machScalar
      (s.r * (Vehicle.mk' m beta LD A alpha RN P atm true f st).planet.RP)
      (s.v * (Vehicle.mk' m beta LD A alpha RN P atm true f st).planet.Vref)) = c := hf
    simp only [Vehicle.Dbar]
    rw [show (Vehicle.mk' m beta LD A alpha RN P atm true f st).CDMach = f from rfl, h1]
    simp only [Vehicle.mk', e]
    simp
  have hL : (Vehicle.mk' m beta LD A alpha RN P atm true f st).Lbar s.r s.theta s.phi s.v =
      (Vehicle.mk' m (currentBeta m A c) (currentLD m beta LD A c) A alpha RN P atm false f st).Lbar s.r s.theta s.phi
        s.v := by
    simp only [Vehicle.Lbar, Vehicle.mk', e]
    rw [show currentLD m beta LD A c * c = LD * (m / (beta * A)) by unfold currentLD; field_simp]
  have es : (Vehicle.mk' m beta LD A alpha RN P atm true f st).a_sbar s.r s.theta s.phi s.v delta =
      (Vehicle.mk' m (currentBeta m A c) (currentLD m beta LD A c) A alpha RN P atm false f st).a_sbar s.r s.theta s.phi
        s.v delta := by
    simp only [Vehicle.a_sbar, hD]
    rfl
  have en : (Vehicle.mk' m beta LD A alpha RN P atm true f st).a_nbar s.r s.theta s.phi s.v delta =
      (Vehicle.mk' m (currentBeta m A c) (currentLD m beta LD A c) A alpha RN P atm false f st).a_nbar s.r s.theta s.phi
        s.v delta := by
    simp only [Vehicle.a_nbar, hL]
    rfl
  have ew : (Vehicle.mk' m beta LD A alpha RN P atm true f st).a_wbar s.r s.theta s.phi s.v delta =
      (Vehicle.mk' m (currentBeta m A c) (currentLD m beta LD A c) A alpha RN P atm false f st).a_wbar s.r s.theta s.phi
        s.v delta := by
    simp only [Vehicle.a_wbar, hL]
    rfl
  simp only [Vehicle.EOM, es, en, ew]
  rfl

/-- Only the right-hand side at the current state matters for `SolvesAt`. -/
theorem solvesAt_curve {F G : FState → FState} {y : ℝ → FState} {t : ℝ} (h : SolvesAt F y t) (e : F (y t) = G (y t)) :
    SolvesAt G y t := by
  obtain ⟨h1, h2, h3, h4, h5, h6, h7⟩ := h
  constructor <;> rw [← e] <;> assumption

/-- C20 for vehicles with a drag curve (partial, as `C20_newton_partial`): Newton's law with the drag and lift of the
current drag coefficient, exact along the velocity and normal to it. -/
theorem C20_newton_drag_curve_partial (name : String) (P : Planet)
    (hP : Planet.init name = .ok P) (m beta LD A alpha RN : ℝ) (atm : Atmosphere) (f : ℝ → ℝ)
    (st : InitState) (hm : 0 < m) (hA : 0 < A) (delta : ℝ) (y : ℝ → FState) (t : ℝ)
    (hy : SolvesAt (fun s => (Vehicle.mk' m beta LD A alpha RN P atm true f st).EOM s t delta) y t)
    (hr : (y t).r ≠ 0) (hp : cos (y t).phi ≠ 0) (hv : (y t).v ≠ 0)
    (hg : cos (y t).gamma + 1e-2 ≠ 0) (Ur Up c : ℝ)
    (hUr : HasDerivAt (fun ρ => potential P.J2 P.J3 ρ (y t).phi) Ur (y t).r)
    (hUp : HasDerivAt (fun p => potential P.J2 P.J3 (y t).r p) Up (y t).phi) (hc : 0 < c)
    (hf : f ((y t).v * P.Vref / atm.sonicInt ((y t).r * P.RP - P.RP)) = c) :
    let q := P.RP * P.rho atm ((y t).r * P.RP) (y t).theta (y t).phi * (y t).v ^ 2 / 2
    let N := rotatingAccel P.OMEGAbar (pos (y t).r (y t).theta (y t).phi)
      (vel (y t).theta (y t).phi (y t).v (y t).psi (y t).gamma)
      (specForce (q * (c * A / m)) (q * (LD / beta)) delta Ur Up (y t))
    let lat := lateral (y t).theta (y t).phi (y t).psi
    let err := V3.dot N lat + 2 * P.OMEGAbar * (y t).v * cos (y t).gamma * sin (y t).phi
    ∃ Acc, HasDerivV3 (fun s => vel (y s).theta (y s).phi (y s).v (y s).psi (y s).gamma) Acc t ∧
      V3.dot Acc (along (y t).theta (y t).phi (y t).psi (y t).gamma)
        = V3.dot N (along (y t).theta (y t).phi (y t).psi (y t).gamma) ∧
      V3.dot Acc (normal (y t).theta (y t).phi (y t).psi (y t).gamma)
        = V3.dot N (normal (y t).theta (y t).phi (y t).psi (y t).gamma) ∧
      V3.dot Acc lat = V3.dot N lat - 1e-2 / (cos (y t).gamma + 1e-2) * err ∧
      (Acc = N ↔ err = 0) := by
  have hb : 0 < currentBeta m A c := by unfold currentBeta; positivity
  have hy' := solvesAt_curve (G := fun s => (Vehicle.mk' m (currentBeta m A c) (currentLD m beta LD A c) A alpha RN P atm false f
    st).EOM s t delta) hy (curve_EOM P m beta LD A alpha RN atm f st hm hA (y t) t delta c hc hf)
  have h := C20_newton_partial name P hP m (currentBeta m A c) (currentLD m beta LD A c) A alpha RN atm f st hm hb hA
    delta y t hy' hr hp hv hg Ur Up hUr hUp
  have eD : P.RP * P.rho atm ((y t).r * P.RP) (y t).theta (y t).phi * (y t).v ^ 2 / (2 * currentBeta m A c) =
      P.RP * P.rho atm ((y t).r * P.RP) (y t).theta (y t).phi * (y t).v ^ 2 / 2 * (c * A / m) := by
    unfold currentBeta
    field_simp
  have eL : currentLD m beta LD A c * (P.RP * P.rho atm ((y t).r * P.RP) (y t).theta (y t).phi * (y t).v ^ 2 / 2
      * (c * A / m)) = P.RP * P.rho atm ((y t).r * P.RP) (y t).theta (y t).phi * (y t).v ^ 2 / 2 * (LD / beta) := by
    unfold currentLD
    by_cases hb0 : beta = 0
    · simp [hb0]
    · field_simp
  simp only [eD, eL] at h
  exact h

/-- C97 for vehicles with a drag curve (partial, as `C97_momentum_rate_partial`). -/
theorem C97_momentum_drag_curve_partial (name : String) (P : Planet)
    (hP : Planet.init name = .ok P) (m beta LD A alpha RN : ℝ) (atm : Atmosphere) (f : ℝ → ℝ)
    (st : InitState) (hm : 0 < m) (hA : 0 < A) (delta : ℝ) (y : ℝ → FState) (t : ℝ)
    (hy : SolvesAt (fun s => (Vehicle.mk' m beta LD A alpha RN P atm true f st).EOM s t delta) y t)
    (hr : (y t).r ≠ 0) (hp : cos (y t).phi ≠ 0) (hv : (y t).v ≠ 0)
    (hg : cos (y t).gamma + 1e-2 ≠ 0) (Ur Up c : ℝ)
    (hUr : HasDerivAt (fun ρ => potential P.J2 P.J3 ρ (y t).phi) Ur (y t).r)
    (hUp : HasDerivAt (fun p => potential P.J2 P.J3 (y t).r p) Up (y t).phi) (hc : 0 < c)
    (hf : f ((y t).v * P.Vref / atm.sonicInt ((y t).r * P.RP - P.RP)) = c) :
    let q := P.RP * P.rho atm ((y t).r * P.RP) (y t).theta (y t).phi * (y t).v ^ 2 / 2
    let X := pos (y t).r (y t).theta (y t).phi
    let lat := lateral (y t).theta (y t).phi (y t).psi
    let N := rotatingAccel P.OMEGAbar X (vel (y t).theta (y t).phi (y t).v (y t).psi (y t).gamma)
      (specForce (q * (c * A / m)) (q * (LD / beta)) delta Ur Up (y t))
    let err := V3.dot N lat + 2 * P.OMEGAbar * (y t).v * cos (y t).gamma * sin (y t).phi
    let torque := axialTorque X (aeroForce (q * (c * A / m)) (q * (LD / beta)) delta (y t))
    HasDerivAt (fun s => stateMomentum P.OMEGAbar (y s))
      (torque + 1e-2 / (cos (y t).gamma + 1e-2) * err * ((y t).r * cos (y t).phi * sin (y t).psi)) t ∧
    (HasDerivAt (fun s => stateMomentum P.OMEGAbar (y s)) torque t ↔ err * sin (y t).psi = 0) := by
  have hb : 0 < currentBeta m A c := by unfold currentBeta; positivity
  have hy' := solvesAt_curve (G := fun s => (Vehicle.mk' m (currentBeta m A c) (currentLD m beta LD A c) A alpha RN P atm false f
    st).EOM s t delta) hy (curve_EOM P m beta LD A alpha RN atm f st hm hA (y t) t delta c hc hf)
  have h := C97_momentum_rate_partial name P hP m (currentBeta m A c) (currentLD m beta LD A c) A alpha RN atm f st hm
    hb hA delta y t hy' hr hp hv hg Ur Up hUr hUp
  have eD : P.RP * P.rho atm ((y t).r * P.RP) (y t).theta (y t).phi * (y t).v ^ 2 / (2 * currentBeta m A c) =
      P.RP * P.rho atm ((y t).r * P.RP) (y t).theta (y t).phi * (y t).v ^ 2 / 2 * (c * A / m) := by
    unfold currentBeta
    field_simp
  have eL : currentLD m beta LD A c * (P.RP * P.rho atm ((y t).r * P.RP) (y t).theta (y t).phi * (y t).v ^ 2 / 2
      * (c * A / m)) = P.RP * P.rho atm ((y t).r * P.RP) (y t).theta (y t).phi * (y t).v ^ 2 / 2 * (LD / beta) := by
    unfold currentLD
    by_cases hb0 : beta = 0
    · simp [hb0]
    · field_simp
  simp only [eD, eL] at h
  exact h

/-- C18 for every vehicle, with or without a drag curve: the Jacobi energy changes at the rate "minus speed times drag
per unit mass", in the units of the body. -/
theorem C18_rate_any_vehicle (name : String) (P : Planet)
    (hP : Planet.init name = .ok P) (m beta LD A alpha RN : ℝ) (atm : Atmosphere) (u : Bool) (f : ℝ → ℝ)
    (st : InitState) (hm : 0 < m) (delta : ℝ) (y : ℝ → FState) (t : ℝ)
    (hy : SolvesAt (fun s => (Vehicle.mk' m beta LD A alpha RN P atm u f st).EOM s t delta) y t)
    (hr : (y t).r ≠ 0) :
    HasDerivAt (fun s => jacobi P.J2 P.J3 P.OMEGAbar (y s).r (y s).phi (y s).v)
      (-(P.tau / P.Vref * ((y t).v * ((Vehicle.mk' m beta LD A alpha RN P atm u f st).D ((y t).r * P.RP) (y t).theta
        (y t).phi ((y t).v * P.Vref) / m)))) t := by
  refine (C18_jacobi_rate _ delta y t hy hr).congr_deriv ?_
  obtain ⟨h1, -, -, h4, -⟩ := C15_dimensionless_aero name P hP m beta LD A alpha RN atm u f st hm (y t).r (y t).theta
    (y t).phi (y t).v delta
  rw [h1, h4]
  simp only [Vehicle.a_s, l00, show (Vehicle.mk' m beta LD A alpha RN P atm u f st).mass = m from rfl]
  ring

/-- C18 for every vehicle whose drag coefficient is never negative: where the loaded density is non-negative and the
speed is not negative, the Jacobi energy never increases, whatever the bank angle history. -/
theorem C18_never_increases_any_vehicle (name : String) (P : Planet)
    (hP : Planet.init name = .ok P) (m beta LD A alpha RN : ℝ) (atm : Atmosphere) (u : Bool) (f : ℝ → ℝ)
    (st : InitState) (hm : 0 < m) (hb : 0 < beta) (hA : 0 < A) (hf : ∀ M, 0 ≤ f M) (delta : ℝ → ℝ) (y : ℝ → FState)
    (a b : ℝ) (hatm : ∀ h, 0 ≤ h → h ≤ P.hThres → 0 ≤ atm.densityInt h)
    (hy : ∀ t ∈ Set.Icc a b,
      SolvesAt (fun s => (Vehicle.mk' m beta LD A alpha RN P atm u f st).EOM s t (delta t)) y t)
    (hr : ∀ t ∈ Set.Icc a b, (y t).r ≠ 0) (hv : ∀ t ∈ Set.Icc a b, 0 ≤ (y t).v) :
    AntitoneOn (fun s => jacobi P.J2 P.J3 P.OMEGAbar (y s).r (y s).phi (y s).v) (Set.Icc a b) := by
  have hd := fun t ht => C18_rate_any_vehicle name P hP m beta LD A alpha RN atm u f st hm (delta t) y t (hy t ht)
    (hr t ht)
  apply antitoneOn_of_deriv_nonpos (convex_Icc a b)
  · exact fun t ht => (hd t ht).continuousAt.continuousWithinAt
  · intro t ht
    rw [interior_Icc] at ht
    exact (hd t (Set.Ioo_subset_Icc_self ht)).differentiableAt.differentiableWithinAt
  · intro t ht
    rw [interior_Icc] at ht
    have ht' := Set.Ioo_subset_Icc_self ht
    rw [(hd t ht').deriv]
    obtain ⟨_, hR, _, _, _, _, _, _, hV, htau, _⟩ := C01_planet_consistent name P hP
    have h1 := (C03_density_nonneg name P hP atm hatm ((y t).r * P.RP) (y t).theta (y t).phi).1
    have h2 := hv t ht'
    have hCD : 0 ≤ (Vehicle.mk' m beta LD A alpha RN P atm u f st).CD1 ((y t).r * P.RP) ((y t).v * P.Vref) := by
      unfold Vehicle.CD1
      split_ifs
      · exact hf _
      · exact (div_pos hm (mul_pos hb hA)).le
    have hD : 0 ≤ (Vehicle.mk' m beta LD A alpha RN P atm u f st).D ((y t).r * P.RP) (y t).theta (y t).phi
        ((y t).v * P.Vref) := by
      unfold Vehicle.D
      have h3 : 0 ≤ (Vehicle.mk' m beta LD A alpha RN P atm u f st).planet.rho
        (Vehicle.mk' m beta LD A alpha RN P atm u f st).atm ((y t).r * P.RP) (y t).theta (y t).phi := h1
      have h4 : 0 ≤ (Vehicle.mk' m beta LD A alpha RN P atm u f st).A := hA.le
      rw [l05]
      positivity
    have : 0 ≤ P.tau / P.Vref * ((y t).v * ((Vehicle.mk' m beta LD A alpha RN P atm u f st).D ((y t).r * P.RP)
        (y t).theta (y t).phi ((y t).v * P.Vref) / m)) := by positivity
    linarith

/-- C18 for every vehicle: above `h_thres` the Jacobi energy is constant. -/
theorem C18_constant_any_vehicle (name : String) (P : Planet)
    (hP : Planet.init name = .ok P) (m beta LD A alpha RN : ℝ) (atm : Atmosphere) (u : Bool) (f : ℝ → ℝ)
    (st : InitState) (hm : 0 < m) (delta : ℝ → ℝ) (y : ℝ → FState) (a b : ℝ)
    (hy : ∀ t ∈ Set.Icc a b,
      SolvesAt (fun s => (Vehicle.mk' m beta LD A alpha RN P atm u f st).EOM s t (delta t)) y t)
    (hr : ∀ t ∈ Set.Icc a b, P.hThres < P.computeH ((y t).r * P.RP)) :
    ∀ t ∈ Set.Icc a b, jacobi P.J2 P.J3 P.OMEGAbar (y t).r (y t).phi (y t).v
      = jacobi P.J2 P.J3 P.OMEGAbar (y a).r (y a).phi (y a).v := by
  obtain ⟨_, hR, _, _, _, hTr, hTS, hST, _⟩ := C01_planet_consistent name P hP
  have hT : 0 ≤ P.hThres := by linarith
  have hr0 : ∀ t ∈ Set.Icc a b, (y t).r ≠ 0 := by
    intro t ht h0
    have := hr t ht
    simp only [Planet.computeH, h0] at this
    linarith
  have hd : ∀ t ∈ Set.Icc a b, HasDerivAt
      (fun s => jacobi P.J2 P.J3 P.OMEGAbar (y s).r (y s).phi (y s).v) 0 t := by
    intro t ht
    refine (C18_rate_any_vehicle name P hP m beta LD A alpha RN atm u f st hm (delta t) y t (hy t ht)
      (hr0 t ht)).congr_deriv ?_
    have : (Vehicle.mk' m beta LD A alpha RN P atm u f st).planet.rho
        (Vehicle.mk' m beta LD A alpha RN P atm u f st).atm ((y t).r * P.RP) (y t).theta (y t).phi = 0 :=
      (C03_density_regimes P atm _ hT).2.1 (hr t ht)
    simp only [Vehicle.D, this]
    ring
  intro t ht
  have hsub : Set.Icc a t ⊆ Set.Icc a b := Set.Icc_subset_Icc_right ht.2
  exact constant_of_has_deriv_right_zero
    (f := fun s => jacobi P.J2 P.J3 P.OMEGAbar (y s).r (y s).phi (y s).v) (a := a) (b := t)
    (fun s hs => (hd s (hsub hs)).continuousAt.continuousWithinAt)
    (fun s hs => (hd s (hsub (Set.Ico_subset_Icc_self hs))).hasDerivWithinAt) t ⟨ht.1, le_rfl⟩

/-- Case for `C20_newton_drag_curve_partial` and `C97_momentum_drag_curve_partial`: a vehicle with drag coefficient
`1 + M²` descending at Mars. -/
example : ∃ (P : Planet) (atm : Atmosphere) (y : ℝ → FState) (c Ur Up : ℝ), Planet.init "MARS" = .ok P ∧
    SolvesAt (fun s => (Vehicle.mk' 300 78 0.35 3.1416 0 1 P atm true (fun M => 1 + M ^ 2)
      ⟨120, 0, 0, 6, 0, -12, 0, 0⟩).EOM s 0 1) y 0 ∧ 0 < c ∧ (y 0).v = 1.5 ∧
    HasDerivAt (fun ρ => potential P.J2 P.J3 ρ (y 0).phi) Ur (y 0).r ∧
    HasDerivAt (fun p => potential P.J2 P.J3 (y 0).r p) Up (y 0).phi ∧
    (fun M : ℝ => 1 + M ^ 2) ((y 0).v * P.Vref / atm.sonicInt ((y 0).r * P.RP - P.RP)) = c ∧
    (∃ Acc, HasDerivV3 (fun s => vel (y s).theta (y s).phi (y s).v (y s).psi (y s).gamma) Acc 0) ∧
    ∃ rate, HasDerivAt (fun s => stateMomentum P.OMEGAbar (y s)) rate 0 := by
  obtain ⟨P, hP⟩ := (C01_planet_names "MARS").1.mpr (by simp [Spec.bodies])
  let s : FState := ⟨1.01, 0, 0, 1.5, 0.3, 0, 0⟩
  obtain ⟨h1, h2⟩ := tangentCurve_solves (fun s => (Vehicle.mk' 300 78 0.35 3.1416 0 1 P demoAtm true (fun M => 1 + M ^ 2)
      ⟨120, 0, 0, 6, 0, -12, 0, 0⟩).EOM s 0 1) s
  set y := tangentCurve (fun s => (Vehicle.mk' 300 78 0.35 3.1416 0 1 P demoAtm true (fun M => 1 + M ^ 2)
      ⟨120, 0, 0, 6, 0, -12, 0, 0⟩).EOM s 0 1) s with hy
  have hr : (y 0).r ≠ 0 := by rw [h2]; norm_num [s]
  have hG := C17_gravity_is_gradient (Vehicle.mk' 300 78 0.35 3.1416 0 1 P demoAtm true (fun M => 1 + M ^ 2)
      ⟨120, 0, 0, 6, 0, -12, 0, 0⟩) (y 0).r (y 0).phi hr
  have hp : cos (y 0).phi ≠ 0 := by rw [h2]; simp [s]
  have hv : (y 0).v ≠ 0 := by rw [h2]; norm_num [s]
  have hg : cos (y 0).gamma + 1e-2 ≠ 0 := by rw [h2]; norm_num [s]
  have hc : 0 < 1 + ((y 0).v * P.Vref / demoAtm.sonicInt ((y 0).r * P.RP - P.RP)) ^ 2 := by positivity
  obtain ⟨Acc, hA, -⟩ := C20_newton_drag_curve_partial "MARS" P hP 300 78 0.35 3.1416 0 1 demoAtm (fun M => 1 + M ^ 2) _
    (by norm_num) (by norm_num) 1 y 0 h1 hr hp hv hg _ _ _ hG.1 hG.2.1 hc rfl
  obtain ⟨hM, -⟩ := C97_momentum_drag_curve_partial "MARS" P hP 300 78 0.35 3.1416 0 1 demoAtm (fun M => 1 + M ^ 2) _
    (by norm_num) (by norm_num) 1 y 0 h1 hr hp hv hg _ _ _ hG.1 hG.2.1 hc rfl
  exact ⟨P, demoAtm, y, _, _, _, hP, h1, hc, by rw [h2], hG.1, hG.2.1, rfl, ⟨Acc, hA⟩, ⟨_, hM⟩⟩

/-- Case for the three laws of C18 for every vehicle: a vehicle with drag coefficient `1 + M²` on the circular orbit of
`C65_orbit_exists` around Uranus, for a day. -/
example : ∃ (P : Planet) (y : ℝ → FState), Planet.init "URANUS" = .ok P ∧ (∀ t, 0 < (y t).r ∧ 0 < (y t).v) ∧
    (∀ t ∈ Set.Icc (0:ℝ) 86400,
      SolvesAt (fun s => (Vehicle.mk' 300 78 0.35 3.1416 0 1 P ⟨fun _ => 1, fun _ => 1, fun _ => 1, fun _ => 1⟩ true
        (fun M => 1 + M ^ 2) ⟨0, 0, 0, 0, 0, 0, 0, 0⟩).EOM s t 0) y t) ∧
    AntitoneOn (fun t => jacobi P.J2 P.J3 P.OMEGAbar (y t).r (y t).phi (y t).v) (Set.Icc (0:ℝ) 86400) ∧
    ∀ t ∈ Set.Icc (0:ℝ) 86400, jacobi P.J2 P.J3 P.OMEGAbar (y t).r (y t).phi (y t).v =
      jacobi P.J2 P.J3 P.OMEGAbar (y 0).r (y 0).phi (y 0).v := by
  obtain ⟨P, V, r, v, hP, hV, hr, hv, hJ, hvac, hbal, rfl, hth⟩ := C65_orbit_exists
  have hs := C65_circular_orbit_is_solution (Vehicle.mk' 300 78 0.35 3.1416 0 1 P
    ⟨fun _ => 1, fun _ => 1, fun _ => 1, fun _ => 1⟩ true (fun M => 1 + M ^ 2) ⟨0, 0, 0, 0, 0, 0, 0, 0⟩) 0 r v hr hv hJ
    hvac hbal
  refine ⟨P, _, hP, fun _ => ⟨hr, hv⟩, fun t _ => hs t, ?_, fun t ht => ?_⟩
  · exact C18_never_increases_any_vehicle "URANUS" P hP 300 78 0.35 3.1416 0 1 _ true (fun M => 1 + M ^ 2) _ (by norm_num)
      (by norm_num) (by norm_num) (fun M => by positivity) (fun _ => 0) _ 0 86400 (fun _ _ _ => by norm_num)
      (fun t _ => hs t) (fun _ _ => hr.ne') (fun _ _ => hv.le)
  · exact C18_constant_any_vehicle "URANUS" P hP 300 78 0.35 3.1416 0 1 _ true (fun M => 1 + M ^ 2) _ (by norm_num)
      (fun _ => 0) _ 0 86400 (fun t _ => hs t) (fun _ _ => hth) t ht

end AMAT.Props
