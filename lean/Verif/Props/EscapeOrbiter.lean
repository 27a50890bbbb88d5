import Verif.Props.DeflFlown
import Verif.Props.ProbeEscape
import Verif.Props.OrbitFlown

/-
Property C157: the apoapsis distance an `Orbiter` reports is the greatest distance of the flight from the exit state.  For an
escaping vehicle it is not: the object reports a closed orbit.
-/

noncomputable section

open Real

namespace AMAT.Props

open Real AMAT AMAT.Spec

/-- C157: if the exit state is on a bound orbit, every free motion from it stays within `r_apoapsis_mag` and comes to that distance
after any time.

(partial: circular and equatorial orbits have no elements, see `C54_degenerate_fails`; for escaping vehicles it is false, see
`C157_escape_orbit_reported`) -/
theorem C157_apoapsis_reached_partial (name : String) (O : Orbiter) (hP : Planet.init name = .ok O.P) (hr : 0 < O.s.r) (R0 U0 : V3)
    (hR : R0 = pos O.s.r O.s.theta O.s.phi) (hU : U0 = vel O.s.theta O.s.phi O.s.v O.s.psi O.s.g + V3.cross (spin O.P.OMEGA) R0)
    (hE : energy O.P.GM R0 U0 < 0) (hne : (V3.cross R0 U0).x ≠ 0 ∨ (V3.cross R0 U0).y ≠ 0) (hecc : eccVec O.P.GM R0 U0 ≠ 0)
    (hq : 0 < O.P.RP + O.periAltKm * 1000) :
    ∃ ra, O.rApoapsisMag = some ra ∧ (∃ R U, StartsAt O.P.GM R0 U0 R U) ∧ ∀ R U, StartsAt O.P.GM R0 U0 R U →
      (∀ s, V3.norm (R s) ≤ ra) ∧ ∀ s, ∃ s', s < s' ∧ V3.norm (R s') = ra := by
  obtain ⟨_, hRP, hGM, _⟩ := C01_planet_consistent name O.P hP
  obtain ⟨el, -, ra, -, ha, -, he, -, hra, hra1, -⟩ := C54_coast_and_raise_partial name O hP hr R0 U0 hR hU hE hne hecc hq
  have hH0 : V3.cross R0 U0 ≠ 0 := by rintro h; rw [h] at hne; simp at hne
  have hh : 0 < angMom R0 U0 := V3.norm_pos hH0
  refine ⟨ra, hra, every_motion hGM hh, fun R U hs => ?_⟩
  obtain ⟨b1, b2⟩ := bound_flight hGM hE hh ha he hs
  rw [hra1]
  exact ⟨fun s => (b1 s).2, fun s => (b2 s).2⟩

/-- Case for `C157_apoapsis_reached_partial`: a captured vehicle at Mars, still descending. -/
theorem C157_case : ∃ (O : Orbiter) (R0 U0 : V3) (ra : ℝ), Planet.init "MARS" = .ok O.P ∧ O.rApoapsisMag = some ra ∧
    V3.dot R0 U0 < 0 ∧ ∀ R U, StartsAt O.P.GM R0 U0 R U →
      (∀ s, V3.norm (R s) ≤ ra) ∧ ∀ s, ∃ s', s < s' ∧ V3.norm (R s') = ra := by
  obtain ⟨O, R0, U0, hP, hr, hR, hU, hE, hy, hecc, hd, hq⟩ := C148_descending_case
  obtain ⟨ra, h1, -, h2⟩ := C157_apoapsis_reached_partial "MARS" O hP hr R0 U0 hR hU hE (Or.inr hy) hecc hq
  exact ⟨O, R0, U0, ra, hP, h1, hd, h2⟩

/-- C157 (finding): for an exit state with positive orbital energy the object is built without complaint and reports a positive
apoapsis distance, a closed orbit that goes out to it with the requested periapsis, and a cost of the manoeuvre there; the
vehicle flies away beyond every distance, from some time on (at once, if it is not descending) climbing for ever. -/
theorem C157_escape_orbit_reported (name : String) (O : Orbiter) (hP : Planet.init name = .ok O.P) (hr : 0 < O.s.r) (R0 U0 : V3)
    (hR : R0 = pos O.s.r O.s.theta O.s.phi) (hU : U0 = vel O.s.theta O.s.phi O.s.v O.s.psi O.s.g + V3.cross (spin O.P.OMEGA) R0)
    (hE : 0 < energy O.P.GM R0 U0) (hne : (V3.cross R0 U0).x ≠ 0 ∨ (V3.cross R0 U0).y ≠ 0)
    (hq : 0 < O.P.RP + O.periAltKm * 1000) :
    ∃ ra orb dV, O.rApoapsisMag = some ra ∧ 0 < ra ∧ O.orbit = some orb ∧ 0 < orb.a ∧ |orb.e| < 1 ∧
      orb.a * (1 - orb.e) = O.P.RP + O.periAltKm * 1000 ∧ orb.a * (1 + orb.e) = ra ∧ O.prmDvMag = some dV ∧
      (∃ R U, StartsAt O.P.GM R0 U0 R U) ∧ ∀ R U, StartsAt O.P.GM R0 U0 R U → ∃ T, 0 ≤ T ∧ (0 ≤ V3.dot R0 U0 → T = 0) ∧
        StrictMonoOn (fun s => V3.norm (R s)) (Set.Ici T) ∧ Filter.Tendsto (fun s => V3.norm (R s)) Filter.atTop Filter.atTop := by
  obtain ⟨_, hRP, hGM, _⟩ := C01_planet_consistent name O.P hP
  have hH0 : V3.cross R0 U0 ≠ 0 := by rintro h; rw [h] at hne; simp at hne
  have hR0 : R0 ≠ 0 := by rintro rfl; apply hH0; ext <;> simp [V3.cross]
  have hHp := V3.norm_pos hH0
  have hfly : (∃ R U, StartsAt O.P.GM R0 U0 R U) ∧ ∀ R U, StartsAt O.P.GM R0 U0 R U → ∃ T, 0 ≤ T ∧ (0 ≤ V3.dot R0 U0 → T = 0) ∧
        StrictMonoOn (fun s => V3.norm (R s)) (Set.Ici T) ∧ Filter.Tendsto (fun s => V3.norm (R s)) Filter.atTop Filter.atTop :=
    ⟨every_motion hGM hHp, fun R U hs => by
      have := unbound_escapes hGM hs.1 (by rw [hs.2.1, hs.2.2]; exact hH0) (by rw [hs.2.1, hs.2.2]; exact hE.le)
      rwa [hs.2.1, hs.2.2] at this⟩
  have hes := ecc_sq hGM hR0 U0
  have hgt : 1 < V3.norm (eccVec O.P.GM R0 U0) ^ 2 := by
    rw [V3.norm_sq, hes]
    have : 0 < 2 * energy O.P.GM R0 U0 * V3.norm (V3.cross R0 U0) ^ 2 / O.P.GM ^ 2 := by positivity
    linarith
  have hecc : eccVec O.P.GM R0 U0 ≠ 0 := by
    intro h; rw [V3.norm_eq_zero.mpr h] at hgt; norm_num at hgt
  have he1 : 1 < V3.norm (eccVec O.P.GM R0 U0) := by
    have := V3.norm_nonneg (eccVec O.P.GM R0 U0)
    nlinarith
  -- the coast elements
  obtain ⟨el, hco, ha, hee, hh, ho⟩ : ∃ el, O.coast = some el ∧ el.a = -O.P.GM / (2 * energy O.P.GM R0 U0) ∧
      el.e = V3.norm (eccVec O.P.GM R0 U0) ∧ el.h = V3.norm (V3.cross R0 U0) ∧
      orient (V3.cross R0 U0) ((1 / V3.norm (eccVec O.P.GM R0 U0)) • eccVec O.P.GM R0 U0) = some el.o := by
    have hR' : R0 = O.s.rVec := hR
    have hU' : U0 = O.s.vIe O.P := by rw [hU, hR, vIe_eq]
    clear hU hR
    subst hU' hR'
    have hU0 : O.s.vIe O.P ≠ 0 := by
      intro h0; rw [h0] at hne
      simp [V3.cross] at hne
    obtain ⟨g, hg, -, -, -, hh⟩ := fpaIe_spec O.P O.s hr hU0
    have hn : V3.norm O.s.rVec = O.s.r := by rw [rVec_eq, norm_pos_r hr]
    rw [vIeMag_eq, ← hn] at hh
    obtain ⟨el, h1, h2⟩ := elementsOf_conic (fpa := g) hGM hE.ne' hne hecc hh
    refine ⟨el, ?_, h2⟩
    unfold Orbiter.coast
    rw [hg]
    simp only [bind, Option.bind]
    rw [vIeMag_eq, ← hn]
    exact h1
  have huu := V3.unit_dot_self hecc
  set u := (1 / V3.norm (eccVec O.P.GM R0 U0)) • eccVec O.P.GM R0 U0 with hud
  have hpH : V3.dot u (V3.cross R0 U0) = 0 := by rw [hud, V3.dot_smul_left, ecc_dot_cross, mul_zero]
  obtain ⟨o, ho', hunit, hcv, -, -⟩ := orient_spec huu hpH hne
  obtain rfl : o = el.o := Option.some.inj (ho'.symm.trans ho)
  have hww := V3.unit_dot_self hH0
  have huw : V3.dot u ((1 / V3.norm (V3.cross R0 U0)) • V3.cross R0 U0) = 0 := by
    rw [V3.dot_comm, V3.dot_smul_left, V3.dot_comm, hpH, mul_zero]
  set w := (1 / V3.norm (V3.cross R0 U0)) • V3.cross R0 U0 with hwd
  rw [← hee] at he1
  rw [← hh] at hHp
  have haneg : el.a < 0 := by rw [ha]; exact div_neg_of_neg_of_pos (by linarith) (by linarith)
  have hsq : el.h ^ 2 = O.P.GM * el.a * (1 - el.e ^ 2) := by
    have h2 : el.e ^ 2 = 1 + 2 * energy O.P.GM R0 U0 * el.h ^ 2 / O.P.GM ^ 2 := by rw [hee, hh, V3.norm_sq, hes]
    rw [h2, ha]; field_simp; ring
  have hd1 : (1 + el.e * cos π) = -(el.e - 1) := by rw [cos_pi]; ring
  have hd0 : 0 < el.e - 1 := by linarith
  set ra := -(el.a * (1 + el.e)) with hrad
  have hra0 : 0 < ra := by rw [hrad]; have := mul_pos (neg_pos.mpr haneg) (show 0 < 1 + el.e by linarith); linarith
  have hr1 : el.h ^ 2 / O.P.GM / (1 + el.e * cos π) = -ra := by
    rw [hd1, hsq, div_eq_iff (by linarith), hrad]; field_simp; ring
  have hpos : orbitPos O.P.GM el π = some (ra • u) := by
    unfold orbitPos conicPos
    rw [npDiv_some (by rw [hd1]; linarith), hr1]
    simp only [bind, Option.bind, pure]
    rw [hunit, cos_pi, sin_pi]
    congr 1
    ext <;> simp
  have hra : O.rApoapsisMag = some ra := by
    unfold Orbiter.rApoapsisMag
    rw [hco]
    simp only [bind, Option.bind, pure]
    rw [hpos]
    simp only [Option.some.injEq]
    rw [V3.norm_smul, V3.norm_smul, V3.norm_of_dot_one huu, abs_of_pos hra0, abs_of_pos (by positivity)]
    field_simp
  -- the orbit after the manoeuvre
  have hqq : O.rPeriapsisMag = O.P.RP + O.periAltKm * 1000 := by unfold Orbiter.rPeriapsisMag; norm_num; ring
  set q := O.P.RP + O.periAltKm * 1000 with hqd
  set ee := (ra - q) / (ra + q) with hed
  have e1 : ee < 1 := by rw [hed, div_lt_one (by positivity)]; linarith
  have e0 : -1 < ee := by rw [hed, lt_div_iff₀ (by positivity)]; linarith
  set a := ra / (1 + ee) with had
  have ha' : 0 < a := div_pos hra0 (by linarith)
  have hp : 0 < O.P.GM * a * (1 - ee ^ 2) := by
    have : 0 < 1 - ee ^ 2 := by nlinarith
    positivity
  have hel : O.orbit = some ⟨a, ee, sqrt (O.P.GM * a * (1 - ee ^ 2)), el.o⟩ := by
    unfold Orbiter.orbit
    rw [hco, hra]
    simp only [bind, Option.bind, pure, hqq]
    rw [npDiv_some (by positivity)]
    simp only []
    rw [← hed, npDiv_some (by linarith)]
    simp only []
    rw [← had, show a * O.P.GM * (1 - ee ^ 2) = O.P.GM * a * (1 - ee ^ 2) by ring, npSqrt_some hp.le]
  have ha1 : 1 + ee = 2 * ra / (ra + q) := by rw [hed]; field_simp; ring
  have hav : a = (ra + q) / 2 := by rw [had, ha1]; field_simp
  have K2 : EllipseOK O.P.GM ⟨a, ee, sqrt (O.P.GM * a * (1 - ee ^ 2)), el.o⟩ u w :=
    ⟨hGM, ha', e0, e1, sqrt_pos.mpr hp, sq_sqrt hp.le, huu, hww, huw, hunit, hcv⟩
  -- the velocity at anomaly π of the hyperbola
  obtain ⟨V2, hV2, -⟩ := K2.velocity_norm π
  obtain ⟨V1, hV1⟩ : ∃ V1, orbitVel O.P.GM el π = some V1 := by
    have hk := kap_gt
    have hv2 : O.P.GM * (2 / -ra - 1 / el.a) = (el.h / ra) ^ 2 := by
      have hane := haneg.ne
      have hp1 : (1 + el.e) ≠ 0 := by linarith
      rw [div_pow, hsq, hrad]
      field_simp
      ring
    have hhr : 0 < el.h / ra := by positivity
    have hx : npDiv el.h (-ra * (el.h / ra) * 1.0000001) = some (-(1 / kap)) := by
      change npDiv el.h (-ra * (el.h / ra) * kap) = _
      have h1 : -ra * (el.h / ra) * kap = -(el.h * kap) := by field_simp
      rw [h1, npDiv_some (by have := mul_pos hHp (show 0 < kap by linarith); linarith)]
      congr 1
      have : kap ≠ 0 := by linarith
      field_simp
    have hsa : speedAngle O.P.GM el.a el.h (-ra) = some (el.h / ra, arccos (-(1 / kap))) := by
      have hk1 : 1 / kap ≤ 1 := by rw [div_le_one (by linarith)]; linarith
      have hk2 : 0 < 1 / kap := by positivity
      unfold speedAngle
      rw [npDiv_some (by linarith), npDiv_some haneg.ne]
      simp only [bind, Option.bind]
      rw [hv2, npSqrt_some (by positivity), sqrt_sq hhr.le]
      simp only []
      rw [hx]
      simp only []
      rw [npArccos_some ⟨by linarith, by linarith⟩]
      rfl
    unfold orbitVel conicRadius
    rw [npDiv_some (by rw [hd1]; linarith), hr1]
    simp only [bind, Option.bind, pure]
    rw [hsa]
    exact ⟨_, rfl⟩
  refine ⟨ra, _, V3.norm (V2 - V1), hra, hra0, hel, ha', abs_lt.mpr ⟨e0, e1⟩, ?_, ?_, ?_, hfly⟩
  · simp only [hav, hed]; field_simp; ring
  · simp only [hav, hed]; field_simp; ring
  · unfold Orbiter.prmDvMag Orbiter.prmDvVec Orbiter.vApoapsisVecCoast
    rw [hel, hco]
    simp only [bind, Option.bind, pure]
    rw [hV2, hV1]

/-- Case for `C157_escape_orbit_reported`: a vehicle leaving the atmosphere of Mars at 8 km/s, climbing at 30 degrees. -/
theorem C157_escape_case : ∃ (O : Orbiter) (R0 U0 : V3), Planet.init "MARS" = .ok O.P ∧ 0 < O.s.r ∧
    R0 = pos O.s.r O.s.theta O.s.phi ∧ U0 = vel O.s.theta O.s.phi O.s.v O.s.psi O.s.g + V3.cross (spin O.P.OMEGA) R0 ∧
    0 < energy O.P.GM R0 U0 ∧ (V3.cross R0 U0).y ≠ 0 ∧ 0 < V3.dot R0 U0 ∧ 0 < O.P.RP + O.periAltKm * 1000 := by
  obtain ⟨P, hP⟩ := (C01_planet_names "MARS").1.mpr (by simp [Spec.bodies])
  obtain ⟨_, hRP, hGM, _⟩ := C01_planet_consistent "MARS" P hP
  have hGMv : P.GM = 42828370000000 := by
    have : P.GM = 4.282837e13 := by simp [Planet.init] at hP; subst hP; rfl
    rw [this]; norm_num
  have hR' : pos 3509500 0 0 = ⟨3509500, 0, 0⟩ := by ext <;> simp [Spec.pos, Spec.up]
  have hU' : vel 0 0 8000 (π / 2) (π / 6) + V3.cross (spin P.OMEGA) ⟨3509500, 0, 0⟩ =
      ⟨4000, P.OMEGA * 3509500, 4000 * √3⟩ := by
    ext
    · simp [vel, along, up, horiz, east, north, spin, V3.cross]; norm_num
    · simp [vel, along, up, horiz, east, north, spin, V3.cross]
    · simp [vel, along, up, horiz, east, north, spin, V3.cross]; ring
  have h3 : √3 ^ 2 = 3 := sq_sqrt (by norm_num)
  have h30 : 0 < √3 := by positivity
  have hn : V3.norm (⟨3509500, 0, 0⟩ : V3) = 3509500 := V3.norm_eq_of_sq (by norm_num) (by simp only [V3.dot]; norm_num)
  refine ⟨⟨P, ⟨3509500, 8000, π / 6, 0, 0, π / 2⟩, 400⟩, _, _, hP, by norm_num, rfl, rfl, ?_⟩
  simp only
  rw [hR', hU']
  refine ⟨?_, ?_, by simp only [V3.dot]; norm_num, by linarith⟩
  · rw [energy, V3.norm_sq, hn, hGMv]
    have : V3.dot ⟨4000, P.OMEGA * 3509500, 4000 * √3⟩ ⟨4000, P.OMEGA * 3509500, 4000 * √3⟩ =
        16000000 + (P.OMEGA * 3509500) ^ 2 + 16000000 * √3 ^ 2 := by simp only [V3.dot]; ring
    rw [this, h3]
    have := sq_nonneg (P.OMEGA * 3509500)
    norm_num
    linarith
  · simp only [V3.cross]
    intro h
    nlinarith

/-- C157 on the boundary: at exactly the escape energy every reported number is NaN (the semi-major axis is infinite), and a vehicle
that is not descending flies away for ever. -/
theorem C157_parabola (name : String) (O : Orbiter) (hP : Planet.init name = .ok O.P) (hr : 0 < O.s.r) (R0 U0 : V3)
    (hR : R0 = pos O.s.r O.s.theta O.s.phi) (hU : U0 = vel O.s.theta O.s.phi O.s.v O.s.psi O.s.g + V3.cross (spin O.P.OMEGA) R0)
    (hE : energy O.P.GM R0 U0 = 0) :
    O.coast = none ∧ O.rApoapsisMag = none ∧ O.orbit = none ∧ O.prmDvMag = none ∧
      (0 ≤ V3.dot R0 U0 → ∀ R U, StartsAt O.P.GM R0 U0 R U →
        StrictMonoOn (fun s => V3.norm (R s)) (Set.Ici 0) ∧ Filter.Tendsto (fun s => V3.norm (R s)) Filter.atTop Filter.atTop) := by
  obtain ⟨_, hRP, hGM, _⟩ := C01_planet_consistent name O.P hP
  have hn0 : 0 < V3.norm R0 := by rw [hR, norm_pos_r hr]; exact hr
  have hfly : 0 ≤ V3.dot R0 U0 → ∀ R U, StartsAt O.P.GM R0 U0 R U →
        StrictMonoOn (fun s => V3.norm (R s)) (Set.Ici 0) ∧ Filter.Tendsto (fun s => V3.norm (R s)) Filter.atTop Filter.atTop :=
    fun hd R U hs => unbound_leaves hGM hs.1 (by rw [hs.2.1]; exact hn0)
      (by rw [hs.2.1, hs.2.2]; exact hE.ge) (by rw [hs.2.1, hs.2.2]; exact hd)
  have hc : O.coast = none := by
    have hR' : R0 = O.s.rVec := hR
    have hU' : U0 = O.s.vIe O.P := by rw [hU, hR, vIe_eq]
    clear hU hR
    subst hU' hR'
    have hn : V3.norm O.s.rVec = O.s.r := by rw [rVec_eq, norm_pos_r hr]
    unfold Orbiter.coast elementsOf
    rw [vIeMag_eq, ← hn]
    cases O.s.fpaIe O.P with
    | none => rfl
    | some g =>
      simp only [bind, Option.bind]
      have hes : O.P.energyScalar (V3.norm O.s.rVec) (V3.norm (O.s.vIe O.P)) = 0 := by rw [energyScalar_eq]; exact hE
      rw [hes]
      unfold Planet.semiMajorAxisScalar
      rw [if_pos rfl]
  have ho : O.orbit = none := by unfold Orbiter.orbit; rw [hc]; rfl
  refine ⟨hc, by unfold Orbiter.rApoapsisMag; rw [hc]; rfl, ho, ?_, hfly⟩
  unfold Orbiter.prmDvMag Orbiter.prmDvVec; rw [ho]; rfl

/-- Case for `C157_parabola`: a northward level exit at Mars with exactly the escape speed. -/
theorem C157_parabola_case : ∃ (O : Orbiter) (R0 U0 : V3), Planet.init "MARS" = .ok O.P ∧ 0 < O.s.r ∧
    R0 = pos O.s.r O.s.theta O.s.phi ∧ U0 = vel O.s.theta O.s.phi O.s.v O.s.psi O.s.g + V3.cross (spin O.P.OMEGA) R0 ∧
    energy O.P.GM R0 U0 = 0 ∧ 0 < O.s.v ∧ 0 ≤ V3.dot R0 U0 := by
  obtain ⟨P, hP⟩ := (C01_planet_names "MARS").1.mpr (by simp [Spec.bodies])
  have hGMv : P.GM = 42828370000000 := by
    have : P.GM = 4.282837e13 := by simp [Planet.init] at hP; subst hP; rfl
    rw [this]; norm_num
  have hOM : P.OMEGA = 7088253 / 100000000000 := by
    have : P.OMEGA = 7.088253e-5 := by simp [Planet.init] at hP; subst hP; rfl
    rw [this]; norm_num
  have hR' : pos 3509500 0 0 = ⟨3509500, 0, 0⟩ := by ext <;> simp [Spec.pos, Spec.up]
  obtain ⟨v, hv, hv2⟩ : ∃ v : ℝ, 0 < v ∧ v ^ 2 = 2 * P.GM / 3509500 - (P.OMEGA * 3509500) ^ 2 := by
    have h : 0 < 2 * P.GM / 3509500 - (P.OMEGA * 3509500) ^ 2 := by rw [hGMv, hOM]; norm_num
    exact ⟨_, sqrt_pos.mpr h, sq_sqrt h.le⟩
  have hU' : vel 0 0 v (π / 2) 0 + V3.cross (spin P.OMEGA) ⟨3509500, 0, 0⟩ = ⟨0, P.OMEGA * 3509500, v⟩ := by
    ext <;> simp [vel, along, up, horiz, east, north, spin, V3.cross]
  have hn : V3.norm (⟨3509500, 0, 0⟩ : V3) = 3509500 := V3.norm_eq_of_sq (by norm_num) (by simp only [V3.dot]; norm_num)
  refine ⟨⟨P, ⟨3509500, v, 0, 0, 0, π / 2⟩, 400⟩, _, _, hP, by norm_num, rfl, rfl, ?_, hv, ?_⟩
  · simp only
    rw [hR', hU', energy, V3.norm_sq, hn]
    have : V3.dot ⟨0, P.OMEGA * 3509500, v⟩ ⟨0, P.OMEGA * 3509500, v⟩ = (P.OMEGA * 3509500) ^ 2 + v ^ 2 := by
      simp only [V3.dot]; ring
    rw [this, hv2]; ring
  · simp only
    rw [hR', hU']
    simp only [V3.dot]; norm_num

end AMAT.Props
