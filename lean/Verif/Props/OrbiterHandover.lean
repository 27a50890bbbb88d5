import Verif.Props.OrbiterProps
import Verif.Props.PropagationOutcome

/-
Property C138: the Orbiter built from a propagated vehicle continues the orbit that the vehicle's own methods report.
-/

noncomputable section

open Real

namespace AMAT.Props

/-- C138, the handover: an Orbiter can be built from every completed propagation, and starts from the last retained sample. -/
theorem C138_handover (name : String) (V : Vehicle) (hP : Planet.init name = .ok V.planet) (mode : ScipyMode) (I : Integrator)
    (tSec dt deltaDeg : ℝ) (out : PropOut) (h : V.propogateEntry mode I tSec dt deltaDeg = .ok out) (peri : ℝ) :
    ∃ O, Orbiter.init V out peri = .ok O ∧ O.P = V.planet ∧ O.periAltKm = peri ∧ Spec.IsLast out O.s ∧ V.planet.RP ≤ O.s.r := by
  obtain ⟨s, hs, hl⟩ := terminal_isLast (C24_arrays_aligned V mode I tSec dt deltaDeg out h)
  refine ⟨⟨V.planet, s, peri⟩, ?_, rfl, rfl, hl, ?_⟩
  · unfold Orbiter.init
    rw [hs]; rfl
  · unfold Vehicle.propogateEntry at h
    obtain ⟨idx, flag, qc, qr, heat, hc, hq, hq2, hh, rfl⟩ := postProcess_inv h
    exact retained_above_ground name _ hP hc s.r (List.mem_of_getLast? hl.1)

/-- C138 (partial: exits that are neither circular nor equatorial, see `C138_degenerate`).  The apoapsis altitude, the periapsis
altitude and the cost of raising periapsis that the vehicle computes from its last sample are those of the Orbiter built from it. -/
theorem C138_same_orbit_partial (name : String) (V : Vehicle) (hP : Planet.init name = .ok V.planet) (mode : ScipyMode) (I : Integrator)
    (tSec dt deltaDeg : ℝ) (out : PropOut) (h : V.propogateEntry mode I tSec dt deltaDeg = .ok out) (peri : ℝ) (O : Orbiter)
    (hO : Orbiter.init V out peri = .ok O) (R U : V3) (hR : R = Spec.pos O.s.r O.s.theta O.s.phi)
    (hU : U = Spec.vel O.s.theta O.s.phi O.s.v O.s.psi O.s.g + V3.cross (Spec.spin V.planet.OMEGA) R)
    (hE : Spec.energy V.planet.GM R U < 0) (hne : (V3.cross R U).x ≠ 0 ∨ (V3.cross R U).y ≠ 0)
    (hecc : Spec.eccVec V.planet.GM R U ≠ 0) (hq : 0 < V.planet.RP + 1000 * peri) :
    ∃ A B dV el, O.s.apoapsisAltitudeKm V.planet = some A ∧ O.s.periapsisAltitudeKm V.planet = some B ∧
      V.planet.periapsisRaiseDV B A peri = some dV ∧ O.coast = some el ∧
      el.a * (1 + el.e) = V.planet.RP + 1000 * A ∧ el.a * (1 - el.e) = V.planet.RP + 1000 * B ∧
      O.rApoapsisMag = some (V.planet.RP + 1000 * A) ∧ O.prmDvMag = some |dV| ∧ (0 < dV ↔ B < peri) := by
  obtain ⟨O', hO', hp, hpk, hl, hr⟩ := C138_handover name V hP mode I tSec dt deltaDeg out h peri
  rw [hO] at hO'
  obtain rfl := Except.ok.inj hO'
  obtain ⟨_, hRP, hGM, _⟩ := C01_planet_consistent name V.planet hP
  have hr0 : 0 < O.s.r := lt_of_lt_of_le hRP hr
  have hU0 : U ≠ 0 := by
    rintro rfl
    rcases hne with h1 | h1 <;> exact h1 (by simp [V3.cross])
  obtain ⟨A, B, hA, hB, hBr, hrA, hB0, hroot⟩ := C28_apsides name V.planet hP O.s hr0 R U hR hU hU0 hE
  rw [← hp] at hP hU hE hecc
  obtain ⟨el, el2, ra, c1, c2, c3, c4, -, c6, c7, c8, -, -, -, -, -, c14⟩ :=
    C54_coast_and_raise_partial name O hP hr0 R U hR hU hE hne hecc (by rw [hp, hpk]; linarith)
  have hs : O.s.elements V.planet = some (el.a, el.e) := by
    unfold Orbiter.coast elementsOf at c1
    simp only [bind, pure, Option.bind_eq_some_iff] at c1
    obtain ⟨g, hg, a, ha, e, he, h', -, eu, -, o, -, hel⟩ := c1
    obtain rfl := Option.some.inj hel
    unfold Terminal.elements
    rw [hp] at hg ha he
    simp only [hg, ha, he, bind, Option.bind, pure]
  have eA : el.a * (1 + el.e) = V.planet.RP + 1000 * A := by
    unfold Terminal.apoapsisAltitudeKm at hA
    rw [hs] at hA
    simp only [bind, Option.bind, pure, Option.some.injEq] at hA
    rw [← hA]; norm_num; ring
  have eB : el.a * (1 - el.e) = V.planet.RP + 1000 * B := by
    unfold Terminal.periapsisAltitudeKm at hB
    rw [hs] at hB
    simp only [bind, Option.bind, pure, Option.some.injEq] at hB
    rw [← hB]; norm_num; ring
  rw [hp] at hP
  obtain ⟨dV, d1, d2, d3, -⟩ := C45_periapsis_raise name V.planet hP B A peri (by linarith) hB0 hq.le
  refine ⟨A, B, dV, el, hA, hB, d1, c1, eA, eB, by rw [c6, c7, eA], ?_, d3⟩
  rw [c14, c7, eA, eB, d2, hp, hpk, mul_comm peri 1000]

/-- Finding behind C138: after an equatorial or circular bound exit the vehicle's methods report an orbit and the Orbiter built from
the same vehicle has none (every number is NaN). -/
theorem C138_degenerate (name : String) (V : Vehicle) (hP : Planet.init name = .ok V.planet) (mode : ScipyMode) (I : Integrator)
    (tSec dt deltaDeg : ℝ) (out : PropOut) (h : V.propogateEntry mode I tSec dt deltaDeg = .ok out) (peri : ℝ) (O : Orbiter)
    (hO : Orbiter.init V out peri = .ok O) (R U : V3) (hR : R = Spec.pos O.s.r O.s.theta O.s.phi)
    (hU : U = Spec.vel O.s.theta O.s.phi O.s.v O.s.psi O.s.g + V3.cross (Spec.spin V.planet.OMEGA) R) (hU0 : U ≠ 0)
    (hE : Spec.energy V.planet.GM R U < 0)
    (hbad : ((V3.cross R U).x = 0 ∧ (V3.cross R U).y = 0) ∨ Spec.eccVec V.planet.GM R U = 0) (hq : 0 < V.planet.RP + 1000 * peri) :
    (∃ A B dV, O.s.apoapsisAltitudeKm V.planet = some A ∧ O.s.periapsisAltitudeKm V.planet = some B ∧
      V.planet.periapsisRaiseDV B A peri = some dV) ∧ O.coast = none ∧ O.rApoapsisMag = none ∧ O.prmDvMag = none := by
  obtain ⟨O', hO', hp, hpk, hl, hr⟩ := C138_handover name V hP mode I tSec dt deltaDeg out h peri
  rw [hO] at hO'
  obtain rfl := Except.ok.inj hO'
  obtain ⟨_, hRP, hGM, _⟩ := C01_planet_consistent name V.planet hP
  have hr0 : 0 < O.s.r := lt_of_lt_of_le hRP hr
  obtain ⟨A, B, hA, hB, hBr, hrA, hB0, -⟩ := C28_apsides name V.planet hP O.s hr0 R U hR hU hU0 hE
  obtain ⟨dV, d1, -⟩ := C45_periapsis_raise name V.planet hP B A peri (by linarith) hB0 hq.le
  rw [← hp] at hP hU hbad
  obtain ⟨c1, -, c3⟩ := C54_degenerate_fails name O hP hr0 R U hR hU hU0 hbad
  exact ⟨⟨A, B, dV, hA, hB, d1⟩, c1, by unfold Orbiter.rApoapsisMag; rw [c1]; rfl, c3⟩

/-- For the examples: a vehicle 120 km above the equator of Mars flying level at 4 km/s with heading `psi` degrees, and its
Orbiter. -/
theorem level_flight (psi : ℝ) (peri : ℝ) : ∃ (V : Vehicle) (out : PropOut) (O : Orbiter), Planet.init "MARS" = .ok V.planet ∧
    V.propogateEntry .strict constIntegrator 1200 0.1 0 = .ok out ∧ Orbiter.init V out peri = .ok O ∧
    O.s = ⟨3509500, 4000, 0, 0, 0, psi * π / 180⟩ := by
  obtain ⟨P, hP⟩ := (C01_planet_names "MARS").1.mpr (by simp [Spec.bodies])
  obtain ⟨_, hR, _, _, _, hT, hTS, _, hV, _⟩ := C01_planet_consistent "MARS" P hP
  have hRPv : P.RP = 3389.5e3 := by simp [Planet.init] at hP; rw [← hP]; rfl
  have hSk : P.hSkip = 120e3 := by simp [Planet.init] at hP; rw [← hP]; rfl
  set V : Vehicle := Vehicle.mk' 500 100 0.2 1 0 1 P ⟨fun _ => 1, fun _ => 1, fun _ => 1, fun _ => 1⟩ false (fun _ => 1)
    ⟨120, 0, 0, 4, psi, 0, 0, 0⟩ with hVd
  have hpl : V.planet = P := rfl
  obtain ⟨S, e1, e2⟩ := samples_const "MARS" V hP 1200 0.1 0 (by norm_num) (by norm_num)
  have hst : Vehicle.entryState V.planet V.init = ⟨3509500, 0, 0, 4000, psi * π / 180, 0, 0⟩ := by
    rw [hpl, hVd]
    simp only [Vehicle.entryState, Planet.computeR, Vehicle.mk', hRPv]
    norm_num
  have hall : ∀ q ∈ samples V constIntegrator 1200 0.1 0, q.2 = P.nonDimState ⟨3509500, 0, 0, 4000, psi * π / 180, 0, 0⟩ := by
    intro q hq
    rw [e1, List.mem_cons] at hq
    rcases hq with rfl | hq
    · simp only; rw [hst, hpl]
    · rw [e2 q hq, hst, hpl]
  have hr : (P.nonDimState ⟨3509500, 0, 0, 4000, psi * π / 180, 0, 0⟩).r * P.RP = 3509500 := by
    simp only [Planet.nonDimState]; exact div_mul_cancel₀ _ hR.ne'
  have hv : (P.nonDimState ⟨3509500, 0, 0, 4000, psi * π / 180, 0, 0⟩).v * P.Vref = 4000 := by
    simp only [Planet.nonDimState]; exact div_mul_cancel₀ _ hV.ne'
  have halt : (3509500 : ℝ) - P.RP = P.hSkip := by rw [hRPv, hSk]; norm_num
  obtain ⟨out, ho⟩ := C24_returns_inside "MARS" V hP .strict constIntegrator 1200 0.1 0 _ S e1
    (by rw [hpl]; simp only; rw [← hpl, hst, hpl, hr, halt]; exact hTS.le)
    (by rw [hpl]; simp only; rw [← hpl, hst, hpl, hr, halt])
    (by
      rintro ⟨⟨q, hq, hq2⟩, -⟩
      rw [← e1] at hq
      rw [hall q hq, hpl, hr, halt] at hq2
      linarith)
  obtain ⟨O, hO, hp, hpk, ⟨l1, l2, l3, l4, l5, l6⟩, -⟩ := C138_handover "MARS" V hP .strict constIntegrator 1200 0.1 0 out ho peri
  obtain ⟨-, -, -, a4, a5, a6, a7, a8, a9, -⟩ := C24_arrays_aligned V .strict constIntegrator 1200 0.1 0 out ho
  have key : ∀ (f : ℝ × FState → ℝ) (x : ℝ) (l : List ℝ), l = ((samples V constIntegrator 1200 0.1 0).take out.index).map f →
      l.getLast? = some x → ∃ q, q.2 = P.nonDimState ⟨3509500, 0, 0, 4000, psi * π / 180, 0, 0⟩ ∧ f q = x := by
    intro f x l hl hx
    have := List.mem_of_getLast? hx
    rw [hl, List.mem_map] at this
    obtain ⟨q, hq, hq2⟩ := this
    exact ⟨q, hall q (List.mem_of_mem_take hq), hq2⟩
  refine ⟨V, out, O, hP, ho, hO, ?_⟩
  obtain ⟨q1, b1, b1'⟩ := key _ _ _ a4 l1
  obtain ⟨q2, b2, b2'⟩ := key _ _ _ a7 l2
  obtain ⟨q3, b3, b3'⟩ := key _ _ _ a9 l3
  obtain ⟨q4, b4, b4'⟩ := key _ _ _ a5 l4
  obtain ⟨q5, b5, b5'⟩ := key _ _ _ a6 l5
  obtain ⟨q6, b6, b6'⟩ := key _ _ _ a8 l6
  rw [b1, hpl, hr] at b1'
  rw [b2, hpl, hv] at b2'
  rw [b3] at b3'
  rw [b4] at b4'
  rw [b5] at b5'
  rw [b6] at b6'
  rcases hs : O.s with ⟨r, v, g, th, ph, ps⟩
  rw [hs] at b1' b2' b3' b4' b5' b6'
  simp only at b1' b2' b3' b4' b5' b6'
  rw [← b1', ← b2', ← b3', ← b4', ← b5', ← b6']
  rfl

/-- Case for `C138_handover` and `C138_same_orbit_partial`: a northward exit at Mars. -/
example : ∃ (V : Vehicle) (out : PropOut) (O : Orbiter) (A : ℝ), Planet.init "MARS" = .ok V.planet ∧
    V.propogateEntry .strict constIntegrator 1200 0.1 0 = .ok out ∧ Orbiter.init V out 400 = .ok O ∧
    O.s.apoapsisAltitudeKm V.planet = some A ∧ O.rApoapsisMag = some (V.planet.RP + 1000 * A) := by
  obtain ⟨V, out, O, hP, h, hO, hs⟩ := level_flight 90 400
  have hOM : V.planet.OMEGA = 7.088253e-5 := by simp [Planet.init] at hP; rw [← hP]; rfl
  have hGM : V.planet.GM = 4.282837e13 := by simp [Planet.init] at hP; rw [← hP]; rfl
  have hRP : V.planet.RP = 3389.5e3 := by simp [Planet.init] at hP; rw [← hP]; rfl
  have h90 : (90:ℝ) * π / 180 = π / 2 := by ring
  have hR : Spec.pos O.s.r O.s.theta O.s.phi = ⟨3509500, 0, 0⟩ := by rw [hs]; ext <;> simp [Spec.pos, Spec.up]
  have hU : Spec.vel O.s.theta O.s.phi O.s.v O.s.psi O.s.g + V3.cross (Spec.spin V.planet.OMEGA)
      (Spec.pos O.s.r O.s.theta O.s.phi) = ⟨0, 3509500 * 7.088253e-5, 4000⟩ := by
    rw [hR, hs, hOM, h90]
    ext <;> simp [Spec.vel, Spec.along, Spec.horiz, Spec.up, Spec.east, Spec.north, V3.cross, Spec.spin]; ring
  have hn : V3.norm (⟨3509500, 0, 0⟩ : V3) = 3509500 := by
    apply V3.norm_eq_of_sq (by norm_num); simp only [V3.dot]; norm_num
  have hU2 : V3.norm (⟨0, 3509500 * 7.088253e-5, 4000⟩ : V3) ^ 2 = (3509500 * 7.088253e-5) ^ 2 + 4000 ^ 2 := by
    rw [V3.norm_sq]; simp only [V3.dot]; ring
  obtain ⟨A, B, dV, el, hA, -, -, -, -, -, hra, -⟩ := C138_same_orbit_partial "MARS" V hP .strict constIntegrator 1200 0.1 0 out h
    400 O hO _ _ rfl rfl
    (by rw [hU, hR]; unfold Spec.energy; rw [hU2, hn, hGM]; norm_num)
    (Or.inr (by rw [hU, hR]; simp only [V3.cross]; norm_num))
    (by
      rw [hU, hR]
      intro h0
      have := congrArg V3.x h0
      unfold Spec.eccVec at this
      rw [triple_id, ← V3.norm_sq, hU2, hn, hGM] at this
      simp only [V3.sub_x, V3.smul_x, V3.dot, V3.zero_x] at this
      norm_num at this)
    (by rw [hRP]; norm_num)
  exact ⟨V, out, O, A, hP, h, hO, hA, hra⟩

/-- Case for `C138_degenerate`: an eastward exit over the equator of Mars. -/
example : ∃ (V : Vehicle) (out : PropOut) (O : Orbiter) (A : ℝ), Planet.init "MARS" = .ok V.planet ∧
    V.propogateEntry .strict constIntegrator 1200 0.1 0 = .ok out ∧ Orbiter.init V out 400 = .ok O ∧
    O.s.apoapsisAltitudeKm V.planet = some A ∧ O.rApoapsisMag = none := by
  obtain ⟨V, out, O, hP, h, hO, hs⟩ := level_flight 0 400
  have hOM : V.planet.OMEGA = 7.088253e-5 := by simp [Planet.init] at hP; rw [← hP]; rfl
  have hGM : V.planet.GM = 4.282837e13 := by simp [Planet.init] at hP; rw [← hP]; rfl
  have hRP : V.planet.RP = 3389.5e3 := by simp [Planet.init] at hP; rw [← hP]; rfl
  have h0 : (0:ℝ) * π / 180 = 0 := by ring
  have hR : Spec.pos O.s.r O.s.theta O.s.phi = ⟨3509500, 0, 0⟩ := by rw [hs]; ext <;> simp [Spec.pos, Spec.up]
  have hU : Spec.vel O.s.theta O.s.phi O.s.v O.s.psi O.s.g + V3.cross (Spec.spin V.planet.OMEGA)
      (Spec.pos O.s.r O.s.theta O.s.phi) = ⟨0, 4000 + 3509500 * 7.088253e-5, 0⟩ := by
    rw [hR, hs, hOM, h0]
    ext <;> simp [Spec.vel, Spec.along, Spec.horiz, Spec.up, Spec.east, Spec.north, V3.cross, Spec.spin]; ring
  have hn : V3.norm (⟨3509500, 0, 0⟩ : V3) = 3509500 := by
    apply V3.norm_eq_of_sq (by norm_num); simp only [V3.dot]; norm_num
  have hU2 : V3.norm (⟨0, 4000 + 3509500 * 7.088253e-5, 0⟩ : V3) ^ 2 = (4000 + 3509500 * 7.088253e-5) ^ 2 := by
    rw [V3.norm_sq]; simp only [V3.dot]; ring
  obtain ⟨⟨A, B, dV, hA, -⟩, -, hra, -⟩ := C138_degenerate "MARS" V hP .strict constIntegrator 1200 0.1 0 out h
    400 O hO _ _ rfl rfl
    (by rw [hU]; intro h0; have := congrArg V3.y h0; norm_num at this)
    (by rw [hU, hR]; unfold Spec.energy; rw [hU2, hn, hGM]; norm_num)
    (Or.inl (by rw [hU, hR]; simp only [V3.cross]; norm_num))
    (by rw [hRP]; norm_num)
  exact ⟨V, out, O, A, hP, h, hO, hA, hra⟩

end AMAT.Props
