import Verif.Props.PropulsiveOrbit
import Verif.Props.OrbitProps

/-
Properties C54, C55, C69: the coast orbit after atmospheric exit, the periapsis-raise manoeuvre and the trajectory of a
probe released from the resulting orbit.
-/

noncomputable section

open Classical

namespace AMAT.Props

open Real

/-- The coast ellipse of an exit state. -/
theorem coast_core {O : Orbiter} {R U : V3} (hGM : 0 < O.P.GM) (hr : 0 < O.s.r) (hR : R = Spec.pos O.s.r O.s.theta O.s.phi)
    (hUd : U = Spec.vel O.s.theta O.s.phi O.s.v O.s.psi O.s.g + V3.cross (Spec.spin O.P.OMEGA) R)
    (hE : Spec.energy O.P.GM R U < 0) (hne : (V3.cross R U).x ≠ 0 ∨ (V3.cross R U).y ≠ 0)
    (hecc : Spec.eccVec O.P.GM R U ≠ 0) :
    ∃ el u w, O.coast = some el ∧ StateCore O.P R U el u w ∧ V3.norm R = O.s.r := by
  have hR' : R = O.s.rVec := hR
  have hU' : U = O.s.vIe O.P := by rw [hUd, hR, vIe_eq]
  clear hUd hR
  subst hU' hR'
  have hU0 : O.s.vIe O.P ≠ 0 := by
    intro h0; rw [h0] at hne
    simp [V3.cross] at hne
  obtain ⟨g, hg, -, -, -, hh⟩ := fpaIe_spec O.P O.s hr hU0
  have hn : V3.norm O.s.rVec = O.s.r := by rw [rVec_eq, norm_pos_r hr]
  rw [vIeMag_eq, ← hn] at hh
  obtain ⟨el, u, w, h1, h2⟩ := elementsOf_core (fpa := g) hGM hE hne hecc hh
  refine ⟨el, u, w, ?_, h2, hn⟩
  unfold Orbiter.coast
  rw [hg]
  simp only [bind, Option.bind]
  rw [vIeMag_eq, ← hn]
  exact h1

theorem ellipse_apo {GM : ℝ} {el : Elements} {u w : V3} (K : EllipseOK GM el u w) :
    orbitPos GM el π = some ((-(el.a * (1 + el.e))) • u) ∧ 0 < el.a * (1 + el.e) ∧
      EllipseOK.rad GM el π = el.a * (1 + el.e) := by
  have hem : 0 < 1 - el.e := by linarith [K.e1]
  have hep : 0 < 1 + el.e := by linarith [K.e0]
  have hrad : EllipseOK.rad GM el π = el.a * (1 + el.e) := by
    rw [K.rad_eq, cos_pi, show 1 + el.e * -1 = 1 - el.e by ring]
    field_simp
    ring
  refine ⟨?_, mul_pos K.apos hep, hrad⟩
  rw [K.pos]
  unfold cPos
  rw [show el.h ^ 2 / GM / (1 + el.e * cos π) = EllipseOK.rad GM el π from rfl, hrad, cos_pi, sin_pi]
  congr 1
  ext <;> simp

/-- The orbit after the periapsis-raise manoeuvre. -/
theorem prm_core {O : Orbiter} {el : Elements} {u w : V3} (K : EllipseOK O.P.GM el u w) (hRP : 0 < O.P.RP)
    (hc : O.coast = some el) (hq : 0 < O.P.RP + O.periAltKm * 1000) :
    O.rApoapsisMag = some (el.a * (1 + el.e)) ∧
    ∃ el2, O.orbit = some el2 ∧ EllipseOK O.P.GM el2 u w ∧ el2.o = el.o ∧
      el2.a * (1 - el2.e) = O.P.RP + O.periAltKm * 1000 ∧ el2.a * (1 + el2.e) = el.a * (1 + el.e) := by
  obtain ⟨p1, p2, p3⟩ := ellipse_apo K
  set ra := el.a * (1 + el.e) with hrad
  have hra : O.rApoapsisMag = some ra := by
    unfold Orbiter.rApoapsisMag
    rw [hc]
    simp only [bind, Option.bind, pure]
    rw [p1]
    simp only [Option.some.injEq]
    rw [V3.norm_smul, V3.norm_smul, V3.norm_of_dot_one K.uu, abs_neg, abs_of_pos p2, abs_of_pos (by positivity)]
    field_simp
  refine ⟨hra, ?_⟩
  have hqq : O.rPeriapsisMag = O.P.RP + O.periAltKm * 1000 := by unfold Orbiter.rPeriapsisMag; norm_num; ring
  set q := O.P.RP + O.periAltKm * 1000 with hqd
  set ee := (ra - q) / (ra + q) with hed
  have e1 : ee < 1 := by rw [hed, div_lt_one (by positivity)]; linarith
  have e0 : -1 < ee := by rw [hed, lt_div_iff₀ (by positivity)]; linarith
  set a := ra / (1 + ee) with had
  have ha : 0 < a := div_pos p2 (by linarith)
  have hp : 0 < O.P.GM * a * (1 - ee ^ 2) := by
    have : 0 < 1 - ee ^ 2 := by nlinarith
    have := K.gm
    positivity
  have hel : O.orbit = some ⟨a, ee, sqrt (O.P.GM * a * (1 - ee ^ 2)), el.o⟩ := by
    unfold Orbiter.orbit
    rw [hc, hra]
    simp only [bind, Option.bind, pure, hqq]
    rw [npDiv_some (by positivity)]
    simp only []
    rw [← hed, npDiv_some (by linarith)]
    simp only []
    rw [← had, show a * O.P.GM * (1 - ee ^ 2) = O.P.GM * a * (1 - ee ^ 2) by ring, npSqrt_some hp.le]
  have ha1 : 1 + ee = 2 * ra / (ra + q) := by rw [hed]; field_simp; ring
  have hav : a = (ra + q) / 2 := by rw [had, ha1]; field_simp
  refine ⟨_, hel, ⟨K.gm, ha, e0, e1, sqrt_pos.mpr hp, sq_sqrt hp.le, K.uu, K.ww, K.uw, K.unit, K.vel⟩, rfl, ?_, ?_⟩
  · simp only [hav, hed]; field_simp; ring
  · simp only [hav, hed]; field_simp; ring

/-- Speed at apoapsis. -/
theorem spd_apo {GM : ℝ} {el : Elements} {u w : V3} (K : EllipseOK GM el u w) :
    EllipseOK.spd GM el π = Spec.visViva GM (el.a * (1 + el.e)) (el.a * (1 - el.e)) (el.a * (1 + el.e)) := by
  have ha := K.apos
  unfold EllipseOK.spd Spec.visViva
  rw [(ellipse_apo K).2.2]
  congr 3
  rw [show el.a * (1 - el.e) + el.a * (1 + el.e) = 2 * el.a by ring]
  field_simp

/-! ### C54 -/

/-- C54: for every exit state `(R, U)` (inertial) on a bound, non-circular, non-equatorial orbit, with a requested
periapsis radius above zero:

(partial: circular and equatorial orbits are excluded, see `C54_degenerate_fails`)
* the coast elements are those of the state: semi-major axis from the energy, angular momentum, eccentricity vector;
* the exit anomaly exists, its radius is the exit radius, and if the vehicle is not descending the coast position there is
  the exit position;
* after the manoeuvre the periapsis is the requested one, the apoapsis radius and the apoapsis position are unchanged;
* the reported cost is the difference of the vis-viva speeds at apoapsis on the two ellipses. -/
theorem C54_coast_and_raise_partial (name : String) (O : Orbiter) (hP : Planet.init name = .ok O.P) (hr : 0 < O.s.r) (R U : V3)
    (hR : R = Spec.pos O.s.r O.s.theta O.s.phi)
    (hUd : U = Spec.vel O.s.theta O.s.phi O.s.v O.s.psi O.s.g + V3.cross (Spec.spin O.P.OMEGA) R)
    (hE : Spec.energy O.P.GM R U < 0) (hne : (V3.cross R U).x ≠ 0 ∨ (V3.cross R U).y ≠ 0)
    (hecc : Spec.eccVec O.P.GM R U ≠ 0) (hq : 0 < O.P.RP + O.periAltKm * 1000) :
    ∃ el el2 ra, O.coast = some el ∧ el.a = -O.P.GM / (2 * Spec.energy O.P.GM R U) ∧ el.h = Spec.angMom R U ∧
      el.e = V3.norm (Spec.eccVec O.P.GM R U) ∧
      (∃ t, O.thetaStarExit = some t ∧ conicRadius O.P.GM el.h el.e t = some (V3.norm R) ∧
        (0 ≤ V3.dot R U → orbitPos O.P.GM el t = some R)) ∧
      O.rApoapsisMag = some ra ∧ ra = el.a * (1 + el.e) ∧ V3.norm R ≤ ra ∧
      O.orbit = some el2 ∧ el2.a * (1 - el2.e) = O.P.RP + O.periAltKm * 1000 ∧ el2.a * (1 + el2.e) = ra ∧
      el2.h ^ 2 = O.P.GM * el2.a * (1 - el2.e ^ 2) ∧
      (∃ A, orbitPos O.P.GM el π = some A ∧ O.pos π = some A ∧ V3.norm A = ra) ∧
      O.prmDvMag = some |Spec.visViva O.P.GM ra (O.P.RP + O.periAltKm * 1000) ra - Spec.visViva O.P.GM ra (el.a * (1 - el.e)) ra| := by
  obtain ⟨_, hRP, hGM, _⟩ := C01_planet_consistent name O.P hP
  obtain ⟨el, u, w, hc, S, hRn⟩ := coast_core hGM hr hR hUd hE hne hecc
  have K := S.ok
  obtain ⟨hra, el2, h2, K2, ho2, a1, a2⟩ := prm_core K hRP hc hq
  obtain ⟨p1, p2, p3⟩ := ellipse_apo K
  obtain ⟨p1', p2', p3'⟩ := ellipse_apo K2
  have hee : el.e = V3.norm (Spec.eccVec O.P.GM R U) := by
    rw [S.he, V3.norm_smul, V3.norm_of_dot_one K.uu, abs_of_pos S.epos, mul_one]
  have hr0 := S.r0
  have he0 := S.epos
  have hth : ∀ t, npArccos ((el.h ^ 2 / (O.P.GM * V3.norm R) - 1) * (1 / el.e)) = some t → O.thetaStarExit = some t := by
    intro t ht
    unfold Orbiter.thetaStarExit
    rw [hc]
    simp only [bind, Option.bind]
    rw [← hRn, npDiv_some (by positivity), npDiv_some he0.ne', Lits.l10]
    exact ht
  -- cosine bound
  have hcu : |V3.dot R u| ≤ V3.norm R := by
    have := V3.abs_dot_le R u
    rwa [V3.norm_of_dot_one K.uu, mul_one] at this
  have hcs := S.cosnu
  have hx : (el.h ^ 2 / (O.P.GM * V3.norm R) - 1) * (1 / el.e) = V3.dot R u / V3.norm R := by
    have : V3.dot R u = (el.h ^ 2 / O.P.GM - V3.norm R) / el.e := by rw [← hcs]; field_simp
    rw [this]; field_simp
  have hxb : -1 ≤ V3.dot R u / V3.norm R ∧ V3.dot R u / V3.norm R ≤ 1 := by
    have := abs_le.mp hcu
    constructor
    · rw [le_div_iff₀ hr0]; linarith
    · rw [div_le_iff₀ hr0]; linarith
  refine ⟨el, el2, _, hc, S.ha, S.hh, hee, ?_, hra, rfl, ?_, h2, a1, a2, K2.hsq, ?_, ?_⟩
  · refine ⟨arccos (V3.dot R u / V3.norm R), hth _ (by rw [hx, npArccos_some hxb]), ?_, ?_⟩
    · rw [K.radius]
      congr 1
      unfold EllipseOK.rad
      have hd := K.den (arccos (V3.dot R u / V3.norm R))
      rw [cos_arccos hxb.1 hxb.2] at hd ⊢
      rw [div_eq_iff hd.ne']
      field_simp
      field_simp at hcs
      linarith
    · intro hout
      obtain ⟨t, t0, t1, t2, t3⟩ := S.on_orbit hout
      rw [hx, npArccos_some hxb] at t2
      rw [Option.some.inj t2, K.pos, t3]
  · have h1 := abs_le.mp hcu
    have hpp : el.h ^ 2 / O.P.GM = el.a * (1 + el.e) * (1 - el.e) := by
      rw [K.hsq]; have := K.gm; field_simp; ring
    have : V3.norm R * (1 - el.e) ≤ el.a * (1 + el.e) * (1 - el.e) := by
      rw [← hpp]; nlinarith
    exact le_of_mul_le_mul_right this (by linarith [K.e1])
  · refine ⟨_, p1, ?_, ?_⟩
    · unfold Orbiter.pos; rw [h2]; simp only [bind, Option.bind]; rw [p1', a2]
    · rw [V3.norm_smul, V3.norm_of_dot_one K.uu, abs_neg, abs_of_pos p2, mul_one]
  · obtain ⟨-, v1⟩ := K.velocity_apsis sin_pi
    obtain ⟨-, v2⟩ := K2.velocity_apsis sin_pi
    rw [spd_apo] at v1 v2
    · rw [a1, a2] at v2
      unfold Orbiter.prmDvMag Orbiter.prmDvVec Orbiter.vApoapsisVecCoast
      rw [hc, h2]
      simp only [bind, Option.bind, pure]
      rw [v1, v2]
      simp only [Option.some.injEq]
      set x := Spec.visViva O.P.GM (el.a * (1 + el.e)) (O.P.RP + O.periAltKm * 1000) (el.a * (1 + el.e))
      set y := Spec.visViva O.P.GM (el.a * (1 + el.e)) (el.a * (1 - el.e)) (el.a * (1 + el.e))
      have hk := kap_gt
      have hk1 : 0 ≤ 1 - (1 / kap) ^ 2 := by
        have : 1 / kap < 1 := by rw [div_lt_one (by linarith)]; exact hk
        have : 0 < 1 / kap := by positivity
        nlinarith
      have hdir : V3.norm (sqrt (1 - (1 / kap) ^ 2) • (cos π • u) + (1 / kap) • (cos π • V3.cross w u)) = 1 := by
        obtain ⟨c1, c2⟩ := cross_unit K.uu K.ww K.uw
        apply V3.norm_of_dot_one
        generalize V3.cross w u = n at *
        rw [cos_pi]
        have hsq := sq_sqrt hk1
        generalize sqrt (1 - (1 / kap) ^ 2) = s at *
        have : V3.dot (s • ((-1:ℝ) • u) + (1 / kap) • ((-1:ℝ) • n)) (s • ((-1:ℝ) • u) + (1 / kap) • ((-1:ℝ) • n)) =
            s ^ 2 * V3.dot u u + 2 * s * (1 / kap) * V3.dot u n + (1 / kap) ^ 2 * V3.dot n n := by
          simp only [V3.dot, V3.add_x, V3.add_y, V3.add_z, V3.smul_x, V3.smul_y, V3.smul_z]; ring
        rw [this, K.uu, c1, c2, hsq]; ring
      generalize sqrt (1 - (1 / kap) ^ 2) • (cos π • u) + (1 / kap) • (cos π • V3.cross w u) = D at *
      have : x • D - y • D = (x - y) • D := by
        ext <;> simp only [V3.sub_x, V3.sub_y, V3.sub_z, V3.smul_x, V3.smul_y, V3.smul_z] <;> ring
      rw [this, V3.norm_smul, hdir, mul_one]
    · exact K2
    · exact K

/-- Finding behind C54: for a circular coast orbit (eccentricity vector zero) or one in the equatorial plane the elements
are not numbers, although both are perfectly good orbits. -/
theorem C54_degenerate_fails (name : String) (O : Orbiter) (hP : Planet.init name = .ok O.P) (hr : 0 < O.s.r) (R U : V3)
    (hR : R = Spec.pos O.s.r O.s.theta O.s.phi)
    (hUd : U = Spec.vel O.s.theta O.s.phi O.s.v O.s.psi O.s.g + V3.cross (Spec.spin O.P.OMEGA) R) (hU0 : U ≠ 0)
    (hbad : ((V3.cross R U).x = 0 ∧ (V3.cross R U).y = 0) ∨ Spec.eccVec O.P.GM R U = 0) :
    O.coast = none ∧ O.orbit = none ∧ O.prmDvMag = none := by
  obtain ⟨_, hRP, hGM, _⟩ := C01_planet_consistent name O.P hP
  have hR' : R = O.s.rVec := hR
  have hU' : U = O.s.vIe O.P := by rw [hUd, hR, vIe_eq]
  clear hUd hR
  subst hU' hR'
  have hn : V3.norm O.s.rVec = O.s.r := by rw [rVec_eq, norm_pos_r hr]
  have hc : O.coast = none := by
    unfold Orbiter.coast elementsOf
    rw [vIeMag_eq, ← hn]
    cases O.s.fpaIe O.P with
    | none => rfl
    | some g =>
      simp only [bind, Option.bind]
      rw [eccVec_eq hGM]
      cases O.P.semiMajorAxisScalar (O.P.energyScalar (V3.norm O.s.rVec) (V3.norm (O.s.vIe O.P))) with
      | none => rfl
      | some a =>
        simp only []
        cases O.P.eccScalar (Planet.angMomScalar (V3.norm O.s.rVec) (V3.norm (O.s.vIe O.P)) g)
            (O.P.energyScalar (V3.norm O.s.rVec) (V3.norm (O.s.vIe O.P))) with
        | none => rfl
        | some e =>
          simp only []
          cases npSqrt (a * O.P.GM * (1 - e ^ 2)) with
          | none => rfl
          | some h =>
            simp only []
            rcases hbad with ⟨hx, hy⟩ | he
            · cases npUnit (Spec.eccVec O.P.GM O.s.rVec (O.s.vIe O.P)) with
              | none => rfl
              | some eu => simp only [orient_equatorial hx hy]
            · rw [he, npUnit_zero]
  have ho : O.orbit = none := by unfold Orbiter.orbit; rw [hc]; rfl
  refine ⟨hc, ho, ?_⟩
  unfold Orbiter.prmDvMag Orbiter.prmDvVec; rw [ho]; rfl

/-- Case for `C54_degenerate_fails`: an eastward exit over the equator of Mars, at 120 km and 4 km/s. -/
example : ∃ O : Orbiter, Planet.init "MARS" = .ok O.P ∧ O.s.r = 3509500 ∧ O.s.v = 4000 ∧ O.orbit = none := by
  obtain ⟨P, hP, -⟩ := demo_mars
  have hOM : P.OMEGA = 7.088253e-5 := by simp [Planet.init] at hP; subst hP; rfl
  have hR : Spec.pos 3509500 0 0 = ⟨3509500, 0, 0⟩ := by ext <;> simp [Spec.pos, Spec.up]
  have hU : Spec.vel 0 0 4000 0 0 + V3.cross (Spec.spin P.OMEGA) (Spec.pos 3509500 0 0) =
      ⟨0, 4000 + 3509500 * 7.088253e-5, 0⟩ := by
    rw [hR, hOM]
    ext <;> simp [Spec.vel, Spec.along, Spec.horiz, Spec.up, Spec.east, Spec.north, V3.cross, Spec.spin]; ring
  refine ⟨⟨P, ⟨3509500, 4000, 0, 0, 0, 0⟩, 400⟩, hP, rfl, rfl, ?_⟩
  refine (C54_degenerate_fails "MARS" _ hP (by norm_num) _ _ rfl rfl ?_ (Or.inl ?_)).2.1
  · simp only [hU]
    intro h0; have := congrArg V3.y h0; norm_num at this
  · simp only [hU]
    simp only [hR, V3.cross]
    norm_num

/-! ### C55: the probe -/

theorem npUnit_smul {k : ℝ} (hk : 0 < k) (a : V3) : npUnit (k • a) = npUnit a := by
  by_cases h : a = 0
  · subst h
    have : k • (0 : V3) = 0 := by ext <;> simp
    rw [this]
  · have h2 : k • a ≠ 0 := by
      intro h0
      have := V3.norm_pos h
      have h1 : V3.norm (k • a) = 0 := by rw [h0]; exact V3.norm_eq_zero.mpr rfl
      rw [V3.norm_smul, abs_of_pos hk] at h1
      have : 0 < k * V3.norm a := by positivity
      linarith
    have hn := V3.norm_pos h
    rw [npUnit_some h, npUnit_some h2, V3.norm_smul, abs_of_pos hk, V3.smul_smul]
    congr 2
    field_simp

/-- Inclination and node depend only on the direction of the angular momentum. -/
theorem orient_dir {H u u' : V3} {k : ℝ} {o o' : Orient} (hk : 0 < k) (h : orient H u = some o)
    (h' : orient (k • H) u' = some o') : o'.i = o.i ∧ o'.OMEGA = o.OMEGA := by
  unfold orient at h h'
  rw [V3.cross_smul_right, npUnit_smul hk, npUnit_smul hk] at h'
  simp only [bind, Option.bind, pure] at h h'
  cases h1 : npUnit H with
  | none => rw [h1] at h; cases h
  | some hU =>
    rw [h1] at h h'
    simp only [] at h h'
    cases h2 : npArccos hU.z with
    | none => rw [h2] at h; cases h
    | some i =>
      rw [h2] at h h'
      simp only [] at h h'
      cases h3 : npUnit (V3.cross ⟨0, 0, 1⟩ H) with
      | none => rw [h3] at h; cases h
      | some n =>
        rw [h3] at h h'
        simp only [] at h h'
        cases h4 : npArccos n.x with
        | none => rw [h4] at h; cases h
        | some aN =>
          rw [h4] at h h'
          simp only [] at h h'
          cases h5 : npArccos (V3.dot n u) with
          | none => rw [h5] at h; cases h
          | some x =>
            cases h6 : npArccos (V3.dot n u') with
            | none => rw [h6] at h'; cases h'
            | some x' =>
              rw [h5] at h; rw [h6] at h'
              have e1 := Option.some.inj h
              have e2 := Option.some.inj h'
              rw [← e1, ← e2]
              exact ⟨rfl, rfl⟩

/-- Position and velocity on an ellipse: radial component outward, transverse component positive. -/
theorem ellipse_rv {GM : ℝ} {el : Elements} {u w R U : V3} (K : EllipseOK GM el u w) {t : ℝ} (hR : orbitPos GM el t = some R)
    (hU : orbitVel GM el t = some U) :
    R ≠ 0 ∧ U ≠ 0 ∧ 0 < V3.dot R U ∧ V3.norm R = EllipseOK.rad GM el t ∧ V3.cross R U = (el.h / kap) • w ∧
      R = EllipseOK.rad GM el t • (cos t • u + sin t • V3.cross w u) := by
  rw [K.pos] at hR
  rw [K.velocity] at hU
  have hR := (Option.some.inj hR).symm
  have hU := (Option.some.inj hU).symm
  obtain ⟨q1, q2⟩ := K.ratio t
  have hk := kap_gt
  have hr := K.rad_pos t
  have hs := K.spd_pos t
  have hx0 : 0 < el.h / (EllipseOK.rad GM el t * EllipseOK.spd GM el t) / kap := by positivity
  have hx1 : el.h / (EllipseOK.rad GM el t * EllipseOK.spd GM el t) / kap < 1 := by
    rw [div_lt_one (by linarith)]; linarith
  have hsq : 0 < sqrt (1 - (el.h / (EllipseOK.rad GM el t * EllipseOK.spd GM el t) / kap) ^ 2) :=
    sqrt_pos.mpr (by nlinarith)
  obtain ⟨c1, c2⟩ := cross_unit K.uu K.ww K.uw
  have c3 : V3.cross u (V3.cross w u) = w := by
    have : V3.cross u (V3.cross w u) = V3.dot u u • w - V3.dot u w • u := by
      ext <;> simp only [V3.cross, V3.dot, V3.sub_x, V3.sub_y, V3.sub_z, V3.smul_x, V3.smul_y, V3.smul_z] <;> ring
    rw [this, K.uu, K.uw]; ext <;> simp
  have sc := sin_sq_add_cos_sq t
  have hvt := K.ht t
  rw [← hvt] at hU
  unfold cPos at hR
  change R = EllipseOK.rad GM el t • _ at hR
  have hvr : 0 < EllipseOK.spd GM el t * sqrt (1 - (el.h / (EllipseOK.rad GM el t * EllipseOK.spd GM el t) / kap) ^ 2) := by positivity
  have hvt0 : 0 < el.h / EllipseOK.rad GM el t / kap := by have := K.hpos; positivity
  have hrt : EllipseOK.rad GM el t * (el.h / EllipseOK.rad GM el t / kap) = el.h / kap := by field_simp
  generalize EllipseOK.spd GM el t * sqrt (1 - (el.h / (EllipseOK.rad GM el t * EllipseOK.spd GM el t) / kap) ^ 2) = vr at *
  generalize EllipseOK.rad GM el t = r at *
  generalize el.h / r / kap = vt at *
  generalize V3.cross w u = q at *
  have hdot : V3.dot R U = r * vr := by
    have : V3.dot R U =
        r * ((cos t * (vr * cos t - vt * sin t)) * V3.dot u u + (cos t * (vr * sin t + vt * cos t) + sin t * (vr * cos t - vt * sin t)) * V3.dot u q
          + (sin t * (vr * sin t + vt * cos t)) * V3.dot q q) := by
      rw [hR, hU]
      simp only [V3.dot, V3.add_x, V3.add_y, V3.add_z, V3.smul_x, V3.smul_y, V3.smul_z]; ring
    rw [this, K.uu, c1, c2]
    linear_combination (r * vr) * sc
  have hd0 : 0 < V3.dot R U := by rw [hdot]; positivity
  refine ⟨?_, ?_, hd0, ?_, ?_, hR⟩
  · rintro rfl; simp [V3.dot] at hd0
  · rintro rfl; simp [V3.dot] at hd0
  · rw [hR, V3.norm_smul, abs_of_pos hr]
    have : V3.norm (cos t • u + sin t • q) = 1 := by
      apply V3.norm_of_dot_one
      have : V3.dot (cos t • u + sin t • q) (cos t • u + sin t • q) =
          cos t ^ 2 * V3.dot u u + 2 * cos t * sin t * V3.dot u q + sin t ^ 2 * V3.dot q q := by
        simp only [V3.dot, V3.add_x, V3.add_y, V3.add_z, V3.smul_x, V3.smul_y, V3.smul_z]; ring
      rw [this, K.uu, c1, c2]; linear_combination sc
    rw [this, mul_one]
  · have : V3.cross R U = (r * vt) • V3.cross u q := by
      rw [hR, hU]
      ext <;> simp only [V3.cross, V3.add_x, V3.add_y, V3.add_z, V3.smul_x, V3.smul_y, V3.smul_z]
      · linear_combination (r * vt * (u.y * q.z - u.z * q.y)) * sc
      · linear_combination (r * vt * (u.z * q.x - u.x * q.z)) * sc
      · linear_combination (r * vt * (u.x * q.y - u.y * q.x)) * sc
    rw [this, c3, hrt]

/-- A state with radial and transverse motion is not on a circular orbit. -/
theorem ecc_ne_zero {GM : ℝ} (hGM : 0 < GM) {R U : V3} (hH : V3.cross R U ≠ 0) (hd : V3.dot R U ≠ 0) :
    Spec.eccVec GM R U ≠ 0 := by
  intro h0
  have h1 : V3.cross (Spec.eccVec GM R U) R = (1 / GM * V3.dot R U) • V3.cross R U := by
    unfold Spec.eccVec
    rw [triple_id]
    ext <;> simp only [V3.cross, V3.dot, V3.sub_x, V3.sub_y, V3.sub_z, V3.smul_x, V3.smul_y, V3.smul_z] <;> ring
  rw [h0] at h1
  have hk : 1 / GM * V3.dot R U ≠ 0 := mul_ne_zero (by positivity) hd
  apply hH
  ext
  · have := congrArg V3.x h1; simp only [V3.smul_x] at this
    simp only [V3.cross, V3.zero_x, V3.zero_y, V3.zero_z] at this ⊢
    exact (mul_eq_zero.mp (by linarith)).resolve_left hk
  · have := congrArg V3.y h1; simp only [V3.smul_y] at this
    simp only [V3.cross, V3.zero_x, V3.zero_y, V3.zero_z] at this ⊢
    exact (mul_eq_zero.mp (by linarith)).resolve_left hk
  · have := congrArg V3.z h1; simp only [V3.smul_z] at this
    simp only [V3.cross, V3.zero_x, V3.zero_y, V3.zero_z] at this ⊢
    exact (mul_eq_zero.mp (by linarith)).resolve_left hk

/-- The probe orbit after a burn along the velocity. -/
theorem probe_core {O : Orbiter} {R U : V3} {coast el : Elements} {u w : V3} (S : StateCore O.P R U coast u w)
    (K : EllipseOK O.P.GM el u w) (ho : el.o = coast.o) (hO : O.orbit = some el)
    (hne : (V3.cross R U).x ≠ 0 ∨ (V3.cross R U).y ≠ 0) {th dV : ℝ} {R1 U1 U2 : V3}
    (hR1 : O.pos th = some R1) (hU1 : O.vel th = some U1) (hdV : -V3.norm U1 < dV)
    (hU2 : U2 = U1 + (dV / V3.norm U1) • U1) (hE : Spec.energy O.P.GM R1 U2 < 0) :
    ∃ probe up wp, O.probeElements th dV = some probe ∧ StateCore O.P R1 U2 probe up wp ∧ wp = w ∧
      0 < V3.dot R1 U2 ∧ probe.h = (1 + dV / V3.norm U1) * (el.h / kap) ∧ V3.norm R1 = EllipseOK.rad O.P.GM el th ∧
      R1 = EllipseOK.rad O.P.GM el th • (cos th • u + sin th • V3.cross w u) ∧
      ∀ t, posProbe O.P.GM el probe t = some (EllipseOK.rad O.P.GM probe t • (cos t • u + sin t • V3.cross w u)) := by
  have hR1' : orbitPos O.P.GM el th = some R1 := by
    unfold Orbiter.pos at hR1; rw [hO] at hR1; exact hR1
  have hU1' : orbitVel O.P.GM el th = some U1 := by
    unfold Orbiter.vel at hU1; rw [hO] at hU1; exact hU1
  obtain ⟨r0, u0, d0, n0, x0, f0⟩ := ellipse_rv K hR1' hU1'
  have hUp := V3.norm_pos u0
  have hk := kap_gt
  set k := 1 + dV / V3.norm U1 with hkd
  have hk0 : 0 < k := by
    have : -1 < dV / V3.norm U1 := by rw [lt_div_iff₀ hUp]; linarith
    linarith
  have hU2k : U2 = k • U1 := by
    rw [hU2, hkd]; ext <;> simp only [V3.add_x, V3.add_y, V3.add_z, V3.smul_x, V3.smul_y, V3.smul_z] <;> ring
  have hcr : V3.cross R1 U2 = (k * (el.h / kap)) • w := by rw [hU2k, V3.cross_smul_right, x0, V3.smul_smul]
  have hkh : 0 < k * (el.h / kap) := by have := K.hpos; positivity
  have hch := S.ok.hpos
  have hwxy : w.x ≠ 0 ∨ w.y ≠ 0 := by
    rw [S.hw] at hne
    rcases hne with h | h
    · left; exact right_ne_zero_of_mul h
    · right; exact right_ne_zero_of_mul h
  have hne2 : (V3.cross R1 U2).x ≠ 0 ∨ (V3.cross R1 U2).y ≠ 0 := by
    rw [hcr]
    rcases hwxy with h | h
    · left; exact mul_ne_zero hkh.ne' h
    · right; exact mul_ne_zero hkh.ne' h
  have hU20 : U2 ≠ 0 := by
    intro h0; rw [h0] at hne2; simp [V3.cross] at hne2
  have hd2 : 0 < V3.dot R1 U2 := by rw [hU2k, V3.dot_smul_right]; positivity
  obtain ⟨g, hg, -, -, -, hgh⟩ := fpaOf_spec r0 hU20
  have hecc := ecc_ne_zero K.gm (by rintro h0; rw [h0] at hne2; simp at hne2) hd2.ne'
  obtain ⟨probe, up, wp, hpe, Sp⟩ := elementsOf_core (fpa := g) K.gm hE hne2 hecc hgh
  have hph : probe.h = k * (el.h / kap) := by
    rw [Sp.hh, hcr, V3.norm_smul, V3.norm_of_dot_one K.ww, abs_of_pos hkh, mul_one]
  have hwp : wp = w := by
    have := Sp.hw
    rw [hcr, hph] at this
    ext
    · exact mul_left_cancel₀ hkh.ne' (congrArg V3.x this).symm
    · exact mul_left_cancel₀ hkh.ne' (congrArg V3.y this).symm
    · exact mul_left_cancel₀ hkh.ne' (congrArg V3.z this).symm
  have hpr : O.probeElements th dV = some probe := by
    unfold Orbiter.probeElements burnElements burn
    rw [hR1, hU1]
    simp only [bind, Option.bind, pure]
    rw [npUnit_some u0]
    simp only []
    have : U1 + dV • (1 / V3.norm U1) • U1 = U2 := by
      rw [hU2, V3.smul_smul]; congr 2; ring
    rw [this, hg]
    exact hpe
  refine ⟨probe, up, wp, hpr, Sp, hwp, hd2, hph, n0, f0, fun t => ?_⟩
  -- orientation angles
  have hor : probe.o.i = coast.o.i ∧ probe.o.OMEGA = coast.o.OMEGA := by
    have h1 := S.ho
    have h2 := Sp.ho
    have : V3.cross R1 U2 = (k * (el.h / kap) / coast.h) • V3.cross R U := by
      rw [hcr, S.hw, V3.smul_smul]; congr 1; field_simp
    rw [this] at h2
    exact orient_dir (by positivity) h1 h2
  have hun := K.unit t
  rw [ho] at hun
  unfold posProbe
  rw [npDiv_some (Sp.ok.den t).ne']
  simp only [bind, Option.bind, pure, Option.some.injEq]
  rw [← hun, ho, hor.1, hor.2]
  rfl

/-- C55: after any release burn along the velocity that does not reverse it and leaves a bound orbit, the
probe elements are those of the state after the burn, and for every anomaly the returned probe position is at the conic
radius of the probe orbit and in the probe's orbital plane.

Partial: probes put on an escape orbit by the release burn are in `C55_probe_position`; missing are circular or equatorial orbits of the orbiter,
for which no elements are computed (`C54_degenerate_fails`). -/
theorem C55_probe_position_partial (name : String) (O : Orbiter) (hP : Planet.init name = .ok O.P) (hr : 0 < O.s.r) (R U : V3)
    (hR : R = Spec.pos O.s.r O.s.theta O.s.phi)
    (hUd : U = Spec.vel O.s.theta O.s.phi O.s.v O.s.psi O.s.g + V3.cross (Spec.spin O.P.OMEGA) R)
    (hE : Spec.energy O.P.GM R U < 0) (hne : (V3.cross R U).x ≠ 0 ∨ (V3.cross R U).y ≠ 0)
    (hecc : Spec.eccVec O.P.GM R U ≠ 0) (hq : 0 < O.P.RP + O.periAltKm * 1000)
    (th dV : ℝ) (R1 U1 U2 : V3) (hR1 : O.pos th = some R1) (hU1 : O.vel th = some U1) (hdV : -V3.norm U1 < dV)
    (hU2 : U2 = U1 + (dV / V3.norm U1) • U1) (hE2 : Spec.energy O.P.GM R1 U2 < 0) :
    ∃ self probe, O.orbit = some self ∧ O.probeElements th dV = some probe ∧
      probe.a = -O.P.GM / (2 * Spec.energy O.P.GM R1 U2) ∧ probe.h = Spec.angMom R1 U2 ∧
      probe.e = V3.norm (Spec.eccVec O.P.GM R1 U2) ∧
      ∀ t, ∃ Rp, posProbe O.P.GM self probe t = some Rp ∧
        V3.norm Rp = Spec.angMom R1 U2 ^ 2 / O.P.GM / (1 + V3.norm (Spec.eccVec O.P.GM R1 U2) * cos t) ∧
        V3.dot Rp (V3.cross R1 U2) = 0 := by
  obtain ⟨_, hRP, hGM, _⟩ := C01_planet_consistent name O.P hP
  obtain ⟨coast, u, w, hc, S, hRn⟩ := coast_core hGM hr hR hUd hE hne hecc
  obtain ⟨-, el, hO, K, ho, -, -⟩ := prm_core S.ok hRP hc hq
  obtain ⟨probe, up, wp, hpr, Sp, hwp, hd, hph, hn, -, hpos⟩ := probe_core S K ho hO hne hR1 hU1 hdV hU2 hE2
  have hee : probe.e = V3.norm (Spec.eccVec O.P.GM R1 U2) := by
    rw [Sp.he, V3.norm_smul, V3.norm_of_dot_one Sp.ok.uu, abs_of_pos Sp.epos, mul_one]
  refine ⟨el, probe, hO, hpr, Sp.ha, Sp.hh, hee, fun t => ⟨_, hpos t, ?_, ?_⟩⟩
  · rw [V3.norm_smul, abs_of_pos (Sp.ok.rad_pos t)]
    have h1 := EllipseOK.norm_polar K.uu K.ww K.uw 1 0 t
    have : (1:ℝ) • (cos t • u + sin t • V3.cross w u) + (0:ℝ) • ((-sin t) • u + cos t • V3.cross w u) =
        cos t • u + sin t • V3.cross w u := by ext <;> simp
    rw [this] at h1
    rw [h1]
    unfold EllipseOK.rad Spec.angMom
    rw [← Sp.hh, ← hee]
    norm_num
  · rw [Sp.hw, hwp]
    have h1 : V3.dot (V3.cross w u) w = 0 := by rw [V3.dot_comm]; exact V3.dot_cross_left _ _
    rw [V3.dot_smul_left, V3.dot_smul_right]
    have : V3.dot (cos t • u + sin t • V3.cross w u) w = cos t * V3.dot u w + sin t * V3.dot (V3.cross w u) w := by
      generalize V3.cross w u = n
      simp only [V3.dot, V3.add_x, V3.add_y, V3.add_z, V3.smul_x, V3.smul_y, V3.smul_z]; ring
    rw [this, K.uw, h1]; ring

/-! ### C69: the probe trajectory and its release point -/

/-- C69: when the probe trajectory starts at the release point.  The sampled trajectory starts at the anomaly `th` of the
orbiter; the position there is the release point exactly when the component of the probe's eccentricity vector toward the
release point is `e cos th`, that is, when the release point has true anomaly `± th` on the probe orbit too. -/
theorem C69_start_iff (name : String) (O : Orbiter) (hP : Planet.init name = .ok O.P) (hr : 0 < O.s.r) (R U : V3)
    (hR : R = Spec.pos O.s.r O.s.theta O.s.phi)
    (hUd : U = Spec.vel O.s.theta O.s.phi O.s.v O.s.psi O.s.g + V3.cross (Spec.spin O.P.OMEGA) R)
    (hE : Spec.energy O.P.GM R U < 0) (hne : (V3.cross R U).x ≠ 0 ∨ (V3.cross R U).y ≠ 0)
    (hecc : Spec.eccVec O.P.GM R U ≠ 0) (hq : 0 < O.P.RP + O.periAltKm * 1000)
    (th dV : ℝ) (R1 U1 U2 : V3) (hR1 : O.pos th = some R1) (hU1 : O.vel th = some U1) (hdV : -V3.norm U1 < dV)
    (hU2 : U2 = U1 + (dV / V3.norm U1) • U1) (hE2 : Spec.energy O.P.GM R1 U2 < 0) :
    ∃ self probe, O.orbit = some self ∧ O.probeElements th dV = some probe ∧
      (posProbe O.P.GM self probe th = some R1 ↔
        V3.norm (Spec.eccVec O.P.GM R1 U2) * cos th = V3.dot R1 (Spec.eccVec O.P.GM R1 U2) / V3.norm R1) := by
  obtain ⟨_, hRP, hGM, _⟩ := C01_planet_consistent name O.P hP
  obtain ⟨coast, u, w, hc, S, hRn⟩ := coast_core hGM hr hR hUd hE hne hecc
  obtain ⟨-, el, hO, K, ho, -, -⟩ := prm_core S.ok hRP hc hq
  obtain ⟨probe, up, wp, hpr, Sp, hwp, hd, hph, hn, hf, hpos⟩ := probe_core S K ho hO hne hR1 hU1 hdV hU2 hE2
  have hee : V3.norm (Spec.eccVec O.P.GM R1 U2) = probe.e := by
    rw [Sp.he, V3.norm_smul, V3.norm_of_dot_one Sp.ok.uu, abs_of_pos Sp.epos, mul_one]
  refine ⟨el, probe, hO, hpr, ?_⟩
  have hr1 := K.rad_pos th
  have hcs := Sp.cosnu
  have hden := Sp.ok.den th
  have h1 := EllipseOK.norm_polar K.uu K.ww K.uw 1 0 th
  have : (1:ℝ) • (cos th • u + sin th • V3.cross w u) + (0:ℝ) • ((-sin th) • u + cos th • V3.cross w u) =
      cos th • u + sin th • V3.cross w u := by ext <;> simp
  rw [this] at h1
  norm_num at h1
  have hiff : posProbe O.P.GM el probe th = some R1 ↔ EllipseOK.rad O.P.GM probe th = EllipseOK.rad O.P.GM el th := by
    rw [hpos]
    constructor
    · intro h0
      have := congrArg V3.norm (Option.some.inj h0)
      rw [V3.norm_smul, h1, mul_one, abs_of_pos (Sp.ok.rad_pos th), hn] at this
      exact this
    · intro h0; rw [h0, ← hf]
  rw [hiff, hee, Sp.he, V3.dot_smul_right, hcs, hn]
  unfold EllipseOK.rad at *
  rw [div_eq_iff hden.ne', eq_div_iff hr1.ne']
  generalize el.h ^ 2 / O.P.GM / (1 + el.e * cos th) = r at *
  constructor <;> intro h <;> linarith

/-- Finding behind C69 (the property "the probe trajectory starts at the release point" is false): released a quarter
orbit after periapsis with any retrograde burn, or with no burn at all, the sampled probe trajectory starts nearer to the
planet than the release point.  The code keeps the orbiter's argument of periapsis for the probe orbit. -/
theorem C69_quarter_orbit_fails (name : String) (O : Orbiter) (hP : Planet.init name = .ok O.P) (hr : 0 < O.s.r) (R U : V3)
    (hR : R = Spec.pos O.s.r O.s.theta O.s.phi)
    (hUd : U = Spec.vel O.s.theta O.s.phi O.s.v O.s.psi O.s.g + V3.cross (Spec.spin O.P.OMEGA) R)
    (hE : Spec.energy O.P.GM R U < 0) (hne : (V3.cross R U).x ≠ 0 ∨ (V3.cross R U).y ≠ 0)
    (hecc : Spec.eccVec O.P.GM R U ≠ 0) (hq : 0 < O.P.RP + O.periAltKm * 1000)
    (dV : ℝ) (R1 U1 U2 : V3) (hR1 : O.pos (π / 2) = some R1) (hU1 : O.vel (π / 2) = some U1) (hdV : -V3.norm U1 < dV)
    (hdV0 : dV ≤ 0) (hU2 : U2 = U1 + (dV / V3.norm U1) • U1) (hE2 : Spec.energy O.P.GM R1 U2 < 0) :
    ∃ self probe Rp, O.orbit = some self ∧ O.probeElements (π / 2) dV = some probe ∧
      posProbe O.P.GM self probe (π / 2) = some Rp ∧ V3.norm Rp < V3.norm R1 := by
  obtain ⟨_, hRP, hGM, _⟩ := C01_planet_consistent name O.P hP
  obtain ⟨coast, u, w, hc, S, hRn⟩ := coast_core hGM hr hR hUd hE hne hecc
  obtain ⟨-, el, hO, K, ho, -, -⟩ := prm_core S.ok hRP hc hq
  obtain ⟨probe, up, wp, hpr, Sp, hwp, hd, hph, hn, hf, hpos⟩ := probe_core S K ho hO hne hR1 hU1 hdV hU2 hE2
  refine ⟨el, probe, _, hO, hpr, hpos _, ?_⟩
  have h1 := EllipseOK.norm_polar K.uu K.ww K.uw 1 0 (π / 2)
  have : (1:ℝ) • (cos (π / 2) • u + sin (π / 2) • V3.cross w u) + (0:ℝ) • ((-sin (π / 2)) • u + cos (π / 2) • V3.cross w u) =
      cos (π / 2) • u + sin (π / 2) • V3.cross w u := by ext <;> simp
  rw [this] at h1
  norm_num at h1
  rw [V3.norm_smul, abs_of_pos (Sp.ok.rad_pos _), hn, cos_pi_div_two, sin_pi_div_two]
  rw [h1]
  have hk := kap_gt
  have hh := K.hpos
  have hU0 : 0 ≤ V3.norm U1 := V3.norm_nonneg _
  have hle : probe.h < el.h := by
    rw [hph]
    have a1 : 1 + dV / V3.norm U1 ≤ 1 := by
      have : dV / V3.norm U1 ≤ 0 := div_nonpos_of_nonpos_of_nonneg hdV0 hU0
      linarith
    have a2 : el.h / kap < el.h := by rw [div_lt_iff₀ (by linarith)]; nlinarith
    have a3 : 0 < el.h / kap := by positivity
    nlinarith
  unfold EllipseOK.rad
  rw [cos_pi_div_two, mul_zero, mul_zero, add_zero, div_one, div_one, mul_one]
  apply div_lt_div_of_pos_right _ hGM
  have := Sp.ok.hpos
  nlinarith

/-- Finding behind C69: released at apoapsis, the sampled probe trajectory never starts exactly at the release point,
whatever the burn: the velocity there is not computed as horizontal. -/
theorem C69_apoapsis_fails (name : String) (O : Orbiter) (hP : Planet.init name = .ok O.P) (hr : 0 < O.s.r) (R U : V3)
    (hR : R = Spec.pos O.s.r O.s.theta O.s.phi)
    (hUd : U = Spec.vel O.s.theta O.s.phi O.s.v O.s.psi O.s.g + V3.cross (Spec.spin O.P.OMEGA) R)
    (hE : Spec.energy O.P.GM R U < 0) (hne : (V3.cross R U).x ≠ 0 ∨ (V3.cross R U).y ≠ 0)
    (hecc : Spec.eccVec O.P.GM R U ≠ 0) (hq : 0 < O.P.RP + O.periAltKm * 1000)
    (dV : ℝ) (R1 U1 U2 : V3) (hR1 : O.pos π = some R1) (hU1 : O.vel π = some U1) (hdV : -V3.norm U1 < dV)
    (hU2 : U2 = U1 + (dV / V3.norm U1) • U1) (hE2 : Spec.energy O.P.GM R1 U2 < 0) :
    ∃ self probe, O.orbit = some self ∧ O.probeElements π dV = some probe ∧ posProbe O.P.GM self probe π ≠ some R1 := by
  obtain ⟨self, probe, h1, h2, h3⟩ := C69_start_iff name O hP hr R U hR hUd hE hne hecc hq π dV R1 U1 U2 hR1 hU1 hdV hU2 hE2
  refine ⟨self, probe, h1, h2, ?_⟩
  rw [Ne, h3]
  obtain ⟨_, hRP, hGM, _⟩ := C01_planet_consistent name O.P hP
  obtain ⟨coast, u, w, hc, S, hRn⟩ := coast_core hGM hr hR hUd hE hne hecc
  obtain ⟨-, el, hO, K, ho, -, -⟩ := prm_core S.ok hRP hc hq
  obtain ⟨probe', up, wp, hpr, Sp, hwp, hd, hph, hn, hf, hpos⟩ := probe_core S K ho hO hne hR1 hU1 hdV hU2 hE2
  have he := Sp.epos
  have hee : V3.norm (Spec.eccVec O.P.GM R1 U2) = probe'.e := by
    rw [Sp.he, V3.norm_smul, V3.norm_of_dot_one Sp.ok.uu, abs_of_pos he, mul_one]
  rw [hee, Sp.he, V3.dot_smul_right, cos_pi]
  intro h0
  have hr0 := Sp.r0
  have hdu : V3.dot R1 up = -V3.norm R1 := by
    rw [eq_div_iff hr0.ne'] at h0
    have : probe'.e * V3.dot R1 up = probe'.e * (-V3.norm R1) := by linarith
    exact mul_left_cancel₀ he.ne' this
  have hs := Sp.sinnu
  have hpos2 : 0 < probe'.e * V3.dot R1 (V3.cross wp up) := by
    rw [hs]; have := Sp.ok.hpos; positivity
  have hdec := plane_decomp Sp.ok.uu Sp.ok.ww Sp.ok.uw Sp.Rw
  obtain ⟨c1, c2⟩ := cross_unit Sp.ok.uu Sp.ok.ww Sp.ok.uw
  have hsum : V3.norm R1 ^ 2 = V3.dot R1 up ^ 2 + V3.dot R1 (V3.cross wp up) ^ 2 := by
    rw [V3.norm_sq]
    conv_lhs => rw [hdec]
    generalize V3.dot R1 up = p
    generalize V3.dot R1 (V3.cross wp up) = q
    generalize V3.cross wp up = n at *
    have : V3.dot (p • up + q • n) (p • up + q • n) = p ^ 2 * V3.dot up up + 2 * p * q * V3.dot up n + q ^ 2 * V3.dot n n := by
      simp only [V3.dot, V3.add_x, V3.add_y, V3.add_z, V3.smul_x, V3.smul_y, V3.smul_z]; ring
    rw [this, Sp.ok.uu, c1, c2]; ring
  rw [hdu] at hsum
  have h5 : V3.dot R1 (V3.cross wp up) ^ 2 = 0 := by nlinarith
  have h6 : V3.dot R1 (V3.cross wp up) = 0 := by simpa using h5
  rw [h6, mul_zero] at hpos2
  exact lt_irrefl _ hpos2

/-- A polar exit at Mars, 120 km, 4 km/s relative to the surface, heading north. -/
theorem mars_exit (p : ℝ) (hp : 0 ≤ p) : ∃ O : Orbiter, Planet.init "MARS" = .ok O.P ∧ 0 < O.s.r ∧
    0 < O.P.RP + O.periAltKm * 1000 ∧ O.periAltKm = p ∧ ∀ R U, R = Spec.pos O.s.r O.s.theta O.s.phi →
      U = Spec.vel O.s.theta O.s.phi O.s.v O.s.psi O.s.g + V3.cross (Spec.spin O.P.OMEGA) R →
      Spec.energy O.P.GM R U < 0 ∧ (V3.cross R U).y ≠ 0 ∧ Spec.eccVec O.P.GM R U ≠ 0 ∧ 0 ≤ V3.dot R U ∧
      R = ⟨3509500, 0, 0⟩ ∧ U = ⟨0, 3509500 * 7.088253e-5, 4000⟩ := by
  obtain ⟨P, hP⟩ := (C01_planet_names "MARS").1.mpr (by simp [Spec.bodies])
  have hRP : P.RP = 3389.5e3 := by simp [Planet.init] at hP; subst hP; rfl
  have hGM : P.GM = 4.282837e13 := by simp [Planet.init] at hP; subst hP; rfl
  have hOM : P.OMEGA = 7.088253e-5 := by simp [Planet.init] at hP; subst hP; rfl
  refine ⟨⟨P, ⟨3509500, 4000, 0, 0, 0, π / 2⟩, p⟩, hP, by norm_num, by simp only [hRP]; linarith, rfl, ?_⟩
  intro R U hR hU
  have hR' : R = ⟨3509500, 0, 0⟩ := by rw [hR]; ext <;> simp [Spec.pos, Spec.up]
  have hU' : U = ⟨0, 3509500 * 7.088253e-5, 4000⟩ := by
    rw [hU, hR']
    simp only [hOM]
    ext <;> simp [Spec.vel, Spec.along, Spec.horiz, Spec.up, Spec.east, Spec.north, V3.cross, Spec.spin]; ring
  have hn : V3.norm R = 3509500 := by
    rw [hR']; apply V3.norm_eq_of_sq (by norm_num); simp only [V3.dot]; norm_num
  have hU2 : V3.norm U ^ 2 = (3509500 * 7.088253e-5) ^ 2 + 4000 ^ 2 := by
    rw [V3.norm_sq, hU']; simp only [V3.dot]; ring
  refine ⟨?_, ?_, ?_, ?_, hR', hU'⟩
  · unfold Spec.energy
    rw [hU2, hn, hGM]; norm_num
  · rw [hR', hU']; simp only [V3.cross]; norm_num
  · intro h0
    have := congrArg V3.x h0
    unfold Spec.eccVec at this
    rw [triple_id, ← V3.norm_sq, hU2, hn, hGM] at this
    rw [hR', hU'] at this
    simp only [V3.sub_x, V3.smul_x, V3.dot, V3.zero_x] at this
    norm_num at this
  · rw [hR', hU']; simp [V3.dot]

/-- Case for `C28_apsides` and `C28_positive_apoapsis_means_bound`: that exit state. -/
example : ∃ (O : Orbiter) (A B : ℝ), Planet.init "MARS" = .ok O.P ∧ O.s.apoapsisAltitudeKm O.P = some A ∧
    O.s.periapsisAltitudeKm O.P = some B ∧ 0 ≤ O.P.RP + 1000 * A ∧
    Spec.energy O.P.GM O.s.rVec (O.s.vIe O.P) < 0 := by
  obtain ⟨O, hP, hr, -, -, h⟩ := mars_exit 100 (by norm_num)
  obtain ⟨hE, -, -, -, -, hU⟩ := h _ _ rfl rfl
  have hU0 : Spec.vel O.s.theta O.s.phi O.s.v O.s.psi O.s.g + V3.cross (Spec.spin O.P.OMEGA)
      (Spec.pos O.s.r O.s.theta O.s.phi) ≠ 0 := by
    rw [hU]; intro h0; have := congrArg V3.z h0; norm_num at this
  obtain ⟨A, B, hA, hB, -, h2, -⟩ := C28_apsides "MARS" O.P hP O.s hr _ _ rfl rfl hU0 hE
  have h0 : 0 ≤ O.P.RP + 1000 * A := by linarith
  exact ⟨O, A, B, hP, hA, hB, h0, (C28_positive_apoapsis_means_bound "MARS" O.P hP O.s hr A hA).mpr h0⟩

/-- Cases for `C54_coast_and_raise_partial`, `C55_probe_position_partial`, `C69_start_iff` and (at `th = π / 2`)
`C69_quarter_orbit_fails`: the exit above has all properties they ask for, and here is a release from that orbit with a small retrograde burn, or none, at any anomaly. -/
example (th : ℝ) : ∃ (O : Orbiter) (R1 U1 U2 : V3) (dV : ℝ), O.pos th = some R1 ∧ O.vel th = some U1 ∧
    -V3.norm U1 < dV ∧ dV ≤ 0 ∧ U2 = U1 + (dV / V3.norm U1) • U1 ∧ Spec.energy O.P.GM R1 U2 < 0 := by
  obtain ⟨O, hP, hr, hq, -, h⟩ := mars_exit 400 (by norm_num)
  obtain ⟨hE, hy, hecc, -, -⟩ := h _ _ rfl rfl
  obtain ⟨_, hRP, hGM, _⟩ := C01_planet_consistent "MARS" O.P hP
  obtain ⟨coast, u, w, hc, S, hRn⟩ := coast_core hGM hr rfl rfl hE (Or.inr hy) hecc
  obtain ⟨-, el, hO, K, ho, -, -⟩ := prm_core S.ok hRP hc hq
  obtain ⟨U, hU, hUn⟩ := K.velocity_norm th
  obtain ⟨r0, u0, d0, n0, x0, f0⟩ := ellipse_rv K (K.pos th) hU
  have hUp := V3.norm_pos u0
  refine ⟨O, _, U, (1 / 2 : ℝ) • U, -(V3.norm U / 2), by unfold Orbiter.pos; rw [hO]; exact K.pos th,
    by unfold Orbiter.vel; rw [hO]; exact hU, by linarith, by linarith, ?_, ?_⟩
  · have : -(V3.norm U / 2) / V3.norm U = -(1 / 2) := by field_simp
    rw [this]; ext <;> simp only [V3.add_x, V3.add_y, V3.add_z, V3.smul_x, V3.smul_y, V3.smul_z] <;> ring
  · unfold Spec.energy
    rw [V3.norm_smul, n0, hUn, abs_of_pos (by norm_num), mul_pow]
    have h2 : EllipseOK.spd O.P.GM el th ^ 2 = O.P.GM * (2 / EllipseOK.rad O.P.GM el th - 1 / el.a) := by
      unfold EllipseOK.spd; rw [sq_sqrt (by rw [K.spd_sq]; positivity)]
    have h3 := K.spd_pos th
    have ha := K.apos
    have hrp := K.rad_pos th
    have h4 : 0 < O.P.GM / el.a := by positivity
    have h5 : 0 < O.P.GM / EllipseOK.rad O.P.GM el th := by positivity
    have h6 : EllipseOK.spd O.P.GM el th ^ 2 = 2 * (O.P.GM / EllipseOK.rad O.P.GM el th) - O.P.GM / el.a := by rw [h2]; ring
    rw [h6]; linarith

end AMAT.Props
