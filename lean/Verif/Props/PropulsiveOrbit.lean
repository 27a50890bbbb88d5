import Verif.Props.EntryAtmosphere
import Verif.Lemmas.Orbiter

/-
Property C53: orbit insertion by an impulsive burn at the periapsis of the arrival hyperbola, and the propulsive part of
C68: velocities on the resulting ellipse.
-/

noncomputable section

open Classical

namespace AMAT.Props

open Real

/-- The target ellipse in the frame of the arrival hyperbola. -/
theorem prop_ellipse {A : Approach} {V e b h : ℝ} {d u w : V3} (H : ApproachCore A V e b h d u w)
    (hn : w.x ≠ 0 ∨ w.y ≠ 0) {apo ra : ℝ} (hra : 0 < ra) (hrad : ra = A.P.RP + apo * 1000) :
    ∃ el, (PropOrbiter.mk A apo).elements = some el ∧ EllipseOK A.P.GM el u w ∧ el.a * (1 - el.e) = A.rp ∧
      el.a * (1 + el.e) = ra ∧ el.a = (A.rp + ra) / 2 := by
  have hg := H.gm; have hrp := H.rp
  obtain ⟨o, ho, h1, h2⟩ := H.orientation hn
  have hraE : (PropOrbiter.mk A apo).ra = ra := by
    unfold PropOrbiter.ra; rw [hrad]; norm_num
  set a := (A.rp + ra) / 2 with had
  set ee := (ra - A.rp) / (ra + A.rp) with hed
  have ha : 0 < a := by positivity
  have e1 : ee < 1 := by rw [hed, div_lt_one (by positivity)]; linarith
  have e0 : -1 < ee := by rw [hed, lt_div_iff₀ (by positivity)]; linarith
  have hp : 0 < A.P.GM * a * (1 - ee ^ 2) := by
    have : 0 < 1 - ee ^ 2 := by nlinarith
    positivity
  have hel : (PropOrbiter.mk A apo).elements = some ⟨a, ee, sqrt (A.P.GM * a * (1 - ee ^ 2)), o⟩ := by
    unfold PropOrbiter.elements
    simp only [bind, Option.bind, pure, hraE, PropOrbiter.rp]
    rw [npDiv_some (by positivity)]
    simp only []
    rw [← had, ← hed, show a * A.P.GM * (1 - ee ^ 2) = A.P.GM * a * (1 - ee ^ 2) by ring, npSqrt_some hp.le]
    simp only [ho]
  refine ⟨_, hel, ⟨hg, ha, e0, e1, sqrt_pos.mpr hp, sq_sqrt hp.le, H.uu, H.ww, H.uw, h1, h2⟩, ?_, ?_, rfl⟩
  · simp only [had, hed]; field_simp; ring
  · simp only [had, hed]; field_simp; ring

/-- Speed and velocity of the hyperbola at periapsis. -/
theorem hyp_periapsis {A : Approach} {V e b h : ℝ} {d u w : V3} (H : ApproachCore A V e b h d u w)
    (hn : w.x ≠ 0 ∨ w.y ≠ 0) :
    A.velVec 0 = some (sqrt (A.vInfMag ^ 2 + 2 * A.P.GM / A.rp) • V3.cross w u) ∧
    0 < sqrt (A.vInfMag ^ 2 + 2 * A.P.GM / A.rp) := by
  have hg := H.gm; have hrp := H.rp; have hh := H.hpos; have he := H.e1
  have hc : 0 < 1 + e * cos 0 := by rw [cos_zero]; linarith
  have hv := Core.vel_eq H hn (t := 0) (by simp) hc
  have hsp := H.speed_sq (t := 0) rfl
  rw [sin_zero, cos_zero, mul_zero, mul_one, zero_pow two_ne_zero, zero_add] at hsp
  have hr : h ^ 2 / A.P.GM / (1 + e) = A.rp := by rw [H.hsq]; field_simp
  rw [hr] at hsp
  have hk : sqrt (A.vInfMag ^ 2 + 2 * A.P.GM / A.rp) = A.P.GM / h * (1 + e) := by
    rw [← H.hV, ← hsp, sqrt_sq (by positivity)]
  rw [hk]
  refine ⟨?_, by positivity⟩
  rw [hv]
  unfold cVel
  rw [sin_zero, cos_zero]
  congr 1
  ext <;> simp only [V3.add_x, V3.add_y, V3.add_z, V3.smul_x, V3.smul_y, V3.smul_z] <;> ring

theorem cross_unit {u w : V3} (hu : V3.dot u u = 1) (hw : V3.dot w w = 1) (huw : V3.dot u w = 0) :
    V3.dot (V3.cross w u) (V3.cross w u) = 1 ∧ V3.dot u (V3.cross w u) = 0 :=
  ⟨by rw [V3.dot_cross_self, hw, hu, V3.dot_comm, huw]; norm_num, V3.dot_cross_right _ _⟩

/-- C53 (partial).  Full claim: for every approach and every apoapsis radius `ra > 0` the target ellipse has the approach
periapsis and the requested apoapsis, touches the hyperbola at its periapsis, and the insertion delta-V `DV_OI_mag` is
positive and equals the difference of the periapsis speeds of hyperbola and ellipse.

Proved: everything about the ellipse, and the delta-V claim for the attribute `DV_OI_mag_check`.  Missing: equatorial
approaches (`C49_equatorial_fails`), and `DV_OI_mag` itself, which is not that difference
(`C53_burn_vector_too_long`). -/
theorem C53_insertion_partial (name : String) (v : V3) (rp psi apo : ℝ) (hEI : Option ℝ) (A : Approach) (Hv : V3)
    (hA : Approach.init name v rp psi false hEI = .ok A) (hv : v ≠ 0) (hrp : 0 < rp) (hH : A.hVec = some Hv)
    (hne : Hv.x ≠ 0 ∨ Hv.y ≠ 0) (hra : 0 < A.P.RP + apo * 1000) :
    ∃ O el, PropOrbiter.init A apo = .ok O ∧ O.elements = some el ∧
      el.a * (1 - el.e) = rp ∧ el.a * (1 + el.e) = A.P.RP + apo * 1000 ∧
      0 < el.h ∧ el.h ^ 2 = A.P.GM * el.a * (1 - el.e ^ 2) ∧
      orbitPos A.P.GM el 0 = A.rpVec ∧ orbitPos A.P.GM el 0 = A.posVec 0 ∧
      (∃ R, orbitPos A.P.GM el π = some R ∧ V3.norm R = A.P.RP + apo * 1000) ∧
      ∃ dv, O.dvMagCheck = some dv ∧ 0 < dv ∧
        dv = sqrt (A.vInfMag ^ 2 + 2 * A.P.GM / rp) - Spec.visViva A.P.GM rp rp (A.P.RP + apo * 1000) := by
  obtain ⟨V, e, bb, h, d, u, w, H, hn, hHw⟩ := approach_facts hA hv hrp hH hne
  obtain ⟨P, hP, hAP, rfl, rfl, rfl, -⟩ := approach_init_inv hA
  have hE0 : A.hEI = none := by
    unfold Approach.init at hA
    rw [hP] at hA
    simp only [bind, Except.bind, pure, Except.pure] at hA
    have := Except.ok.inj hA
    rw [← this]
  set ra := A.P.RP + apo * 1000 with hrad
  obtain ⟨el, hel, K, k1, k2, k3⟩ := prop_ellipse H hn hra hrad
  have hg := H.gm; have hrpp := H.rp
  obtain ⟨hvel, hvp⟩ := hyp_periapsis H hn
  have hpos0 : orbitPos A.P.GM el 0 = some (A.rp • u) := by
    rw [K.pos]
    unfold cPos
    rw [cos_zero, sin_zero, K.hsq]
    have : A.P.GM * el.a * (1 - el.e ^ 2) / A.P.GM / (1 + el.e * 1) = A.rp := by
      rw [← k1]
      have : 0 < 1 + el.e := by linarith [K.e0]
      field_simp; ring
    rw [this]
    congr 1
    ext <;> simp
  have hrpv : A.rpVec = some (A.rp • u) := by unfold Approach.rpVec; rw [H.hu]; rfl
  obtain ⟨-, -, -, -, -, -, -, -, -, -, -, hp0, -⟩ := C49_two_body_partial name _ _ _ false hEI A Hv hA hv hrp hH hne
  have hn1 : V3.norm (V3.cross w u) = 1 := V3.norm_of_dot_one (cross_unit H.uu H.ww H.uw).1
  have hvv : A.P.GM * (2 / A.rp - 1 / el.a) = A.P.GM * (2 / A.rp - 2 / (A.rp + ra)) := by
    rw [k3]; congr 2; field_simp
  have hq0 : 0 ≤ A.P.GM * (2 / A.rp - 2 / (A.rp + ra)) := by
    apply mul_nonneg hg.le
    rw [sub_nonneg]
    exact div_le_div_of_nonneg_left (by norm_num) hrpp (by linarith)
  refine ⟨⟨A, apo⟩, el, ?_, hel, k1, k2, K.hpos, K.hsq, by rw [hpos0, hrpv], by rw [hp0, hpos0, hrpv], ?_, ?_⟩
  · unfold PropOrbiter.init; rw [hE0]
  · refine ⟨_, K.pos π, ?_⟩
    unfold cPos
    rw [cos_pi, sin_pi, K.hsq]
    have hem : 0 < 1 - el.e := by linarith [K.e1]
    have : A.P.GM * el.a * (1 - el.e ^ 2) / A.P.GM / (1 + el.e * -1) = ra := by
      rw [← k2]
      have : 1 + el.e * -1 = 1 - el.e := by ring
      rw [this]; field_simp; ring
    rw [this, V3.norm_smul, abs_of_pos hra]
    have : V3.norm ((-1 : ℝ) • u + (0:ℝ) • V3.cross w u) = 1 := by
      apply V3.norm_of_dot_one
      rw [show (-1 : ℝ) • u + (0:ℝ) • V3.cross w u = (-1 : ℝ) • u by ext <;> simp, V3.dot_smul_left, V3.dot_smul_right, H.uu]
      norm_num
    rw [this, mul_one]
  · refine ⟨_, ?_, ?_, rfl⟩
    · unfold PropOrbiter.dvMagCheck
      rw [hel, hvel]
      simp only [bind, Option.bind, pure, PropOrbiter.rp]
      rw [npDiv_some hrpp.ne', npDiv_some K.apos.ne']
      simp only []
      rw [hvv, npSqrt_some hq0]
      simp only []
      rw [V3.norm_smul, abs_of_pos hvp, hn1, mul_one]
      rfl
    · rw [sub_pos]
      unfold Spec.visViva
      apply sqrt_lt_sqrt hq0
      have h1 : 0 < 2 / (A.rp + ra) := by positivity
      have h2 : A.P.GM * (2 / A.rp - 2 / (A.rp + ra)) = 2 * A.P.GM / A.rp - A.P.GM * (2 / (A.rp + ra)) := by ring
      have h3 : 0 < A.P.GM * (2 / (A.rp + ra)) := by positivity
      rw [h2]
      nlinarith [sq_nonneg A.vInfMag]

/-- Finding behind C53: the reported `DV_OI_mag` is always larger than the difference of the two periapsis speeds, because
`vel_vec_bi` of the ellipse divides the cosine of the flight-path angle by 1.0000001 and so does not point along the
hyperbolic velocity at periapsis. -/
theorem C53_burn_vector_too_long (name : String) (v : V3) (rp psi apo : ℝ) (hEI : Option ℝ) (A : Approach) (Hv : V3)
    (hA : Approach.init name v rp psi false hEI = .ok A) (hv : v ≠ 0) (hrp : 0 < rp) (hH : A.hVec = some Hv)
    (hne : Hv.x ≠ 0 ∨ Hv.y ≠ 0) (hra : 0 < A.P.RP + apo * 1000) :
    ∃ O dv vh ve, PropOrbiter.init A apo = .ok O ∧ O.dvMag = some dv ∧
      vh = sqrt (A.vInfMag ^ 2 + 2 * A.P.GM / rp) ∧ ve = Spec.visViva A.P.GM rp rp (A.P.RP + apo * 1000) ∧
      dv ^ 2 = (vh - ve) ^ 2 + 2 * vh * ve * (1 - 1 / 1.0000001) ∧ vh - ve < dv := by
  obtain ⟨V, e, bb, h, d, u, w, H, hn, hHw⟩ := approach_facts hA hv hrp hH hne
  obtain ⟨P, hP, hAP, rfl, rfl, rfl, -⟩ := approach_init_inv hA
  have hE0 : A.hEI = none := by
    unfold Approach.init at hA
    rw [hP] at hA
    simp only [bind, Except.bind, pure, Except.pure] at hA
    have := Except.ok.inj hA
    rw [← this]
  set ra := A.P.RP + apo * 1000 with hrad
  obtain ⟨el, hel, K, k1, k2, k3⟩ := prop_ellipse H hn hra hrad
  have hg := H.gm; have hrpp := H.rp
  obtain ⟨hvel, hvp⟩ := hyp_periapsis H hn
  obtain ⟨s1, s2⟩ := K.velocity_apsis (t := 0) sin_zero
  have hsp : EllipseOK.spd A.P.GM el 0 = Spec.visViva A.P.GM A.rp A.rp ra := by
    unfold EllipseOK.spd Spec.visViva
    congr 2
    have : EllipseOK.rad A.P.GM el 0 = A.rp := by
      rw [K.rad_eq, cos_zero, ← k1]
      have : 0 < 1 + el.e := by linarith [K.e0]
      field_simp; ring
    rw [this, k3]; field_simp
  have hvep := K.spd_pos 0
  rw [hsp] at s2 hvep
  set vh := sqrt (A.vInfMag ^ 2 + 2 * A.P.GM / A.rp) with hvhd
  set ve := Spec.visViva A.P.GM A.rp A.rp ra with hved
  have hk := kap_gt
  obtain ⟨c1, c2⟩ := cross_unit H.uu H.ww H.uw
  have hk1 : 0 ≤ 1 - (1 / kap) ^ 2 := by
    have : 1 / kap < 1 := by rw [div_lt_one (by linarith)]; exact hk
    have : 0 < 1 / kap := by positivity
    nlinarith
  have hsqk := sq_sqrt hk1
  set s := sqrt (1 - (1 / kap) ^ 2) with hs
  have hsq : V3.norm (vh • V3.cross w u - ve • (s • (cos 0 • u) + (1 / kap) • (cos 0 • V3.cross w u))) ^ 2 =
      (vh - ve) ^ 2 + 2 * vh * ve * (1 - 1 / kap) := by
    rw [V3.norm_sq, cos_zero, V3.one_smul, V3.one_smul]
    set q := V3.cross w u
    have : V3.dot (vh • q - ve • (s • u + (1 / kap) • q)) (vh • q - ve • (s • u + (1 / kap) • q)) =
        (vh - ve * (1 / kap)) ^ 2 * V3.dot q q - 2 * (vh - ve * (1 / kap)) * (ve * s) * V3.dot u q + (ve * s) ^ 2 * V3.dot u u := by
      simp only [V3.dot, V3.sub_x, V3.sub_y, V3.sub_z, V3.add_x, V3.add_y, V3.add_z, V3.smul_x, V3.smul_y, V3.smul_z]; ring
    rw [this, c1, c2, H.uu, mul_pow, hsqk]
    ring
  refine ⟨⟨A, apo⟩, _, vh, ve, by unfold PropOrbiter.init; rw [hE0], ?_, rfl, rfl, hsq, ?_⟩
  · unfold PropOrbiter.dvMag PropOrbiter.dvVec PropOrbiter.vpVec
    rw [hvel, hel]
    simp only [bind, Option.bind, pure]
    rw [s2]
  · refine lt_of_pow_lt_pow_left₀ 2 (V3.norm_nonneg _) ?_
    rw [hsq]
    have : 1 / kap < 1 := by rw [div_lt_one (by linarith)]; exact hk
    have : 0 < 2 * vh * ve * (1 - 1 / kap) := by
      have : 0 < 1 - 1 / kap := by linarith
      positivity
    linarith

/-- C53: an approach built as an entry system has no periapsis state, so no propulsive orbiter can be made from it. -/
theorem C53_entry_system_rejected (name : String) (v : V3) (rp psi hE apo : ℝ) (A : Approach)
    (hA : Approach.init name v rp psi true (some hE) = .ok A) : PropOrbiter.init A apo = .error .attributeError := by
  obtain ⟨P, hP, -⟩ := approach_init_inv hA
  unfold Approach.init at hA
  rw [hP] at hA
  simp only [bind, Except.bind, pure, Except.pure, needNumber] at hA
  have := Except.ok.inj hA
  rw [← this]
  rfl

/-- Case for `C53_entry_system_rejected`: an arrival at Earth planned as an entry system at 120 km. -/
example : ∃ A, Approach.init "EARTH" ⟨0, 10, 0⟩ 6371e3 0 true (some 120e3) = .ok A ∧
    PropOrbiter.init A 35786 = .error .attributeError := by
  obtain ⟨A, -, hA, -⟩ := demo_arrival
  exact ⟨A, hA, C53_entry_system_rejected _ _ _ _ _ 35786 A hA⟩

/-- Case for `C53_insertion_partial`, `C53_burn_vector_too_long`, `C68_velocity_partial` and `C68_always_outbound`, whose
hypotheses it lists: a polar arrival at Earth, periapsis radius 6771 km, apoapsis altitude 35786 km. -/
theorem earth_capture : ∃ A Hv, Approach.init "EARTH" ⟨0, 10 * 1, 0⟩ 6771e3 0 false none = .ok A ∧ (⟨0, 10 * 1, 0⟩ : V3) ≠ 0 ∧
    A.hVec = some Hv ∧ (Hv.x ≠ 0 ∨ Hv.y ≠ 0) ∧ 0 < A.P.RP + 35786 * 1000 := by
  obtain ⟨A, V, e, b, h, d, u, w, hA, H, hV, hd, hu, hw, hRP, -, hrp⟩ :=
    earth_polar (s := 1) (rp := 6771e3) (hE := 120e3) (Or.inl rfl) (by norm_num)
  obtain ⟨P, hP, hAP, h1, h2, h3, -⟩ := approach_init_inv hA
  refine ⟨{ A with hEI := none }, _, ?_, ?_, H.hhv, Or.inr ?_, ?_⟩
  · unfold Approach.init; rw [hP]
    simp only [bind, Except.bind, pure, Except.pure]
    rw [hAP, ← h1, ← h2, ← h3]
    rfl
  · intro h0; have := congrArg V3.y h0; simp at this
  · have := H.sb; have := H.rp; have := H.vpos
    rw [hw]; simp only [V3.smul_y]
    have : 0 < A.rp * V * sin b := by positivity
    linarith
  · change 0 < A.P.RP + 35786 * 1000
    rw [hRP]; norm_num

/-! ### C68: velocities on the ellipse -/

/-- C68 (partial).  Full claim: `vel_vec_bi` of a propulsive orbiter is the velocity of the two-body motion on its orbit.
Proved: its length is the speed of that motion at every anomaly, it lies in the orbit plane, and its transverse part is
that of the motion divided by 1.0000001.  The direction is wrong: see `C68_always_outbound`. -/
theorem C68_velocity_partial (name : String) (v : V3) (rp psi apo : ℝ) (hEI : Option ℝ) (A : Approach) (Hv : V3)
    (hA : Approach.init name v rp psi false hEI = .ok A) (hv : v ≠ 0) (hrp : 0 < rp) (hH : A.hVec = some Hv)
    (hne : Hv.x ≠ 0 ∨ Hv.y ≠ 0) (hra : 0 < A.P.RP + apo * 1000) :
    ∃ (el : Elements) (R W U : ℝ → V3), (PropOrbiter.mk A apo).elements = some el ∧ ∀ t,
      orbitPos A.P.GM el t = some (R t) ∧ orbitVel A.P.GM el t = some (U t) ∧ Spec.TwoBodyAt A.P.GM el.h R W t ∧
      V3.norm (U t) = V3.norm (W t) ∧ V3.dot (U t) Hv = 0 ∧
      V3.cross (R t) (U t) = (1 / 1.0000001 : ℝ) • V3.cross (R t) (W t) := by
  obtain ⟨V, e, bb, h, d, u, w, H, hn, hHw⟩ := approach_facts hA hv hrp hH hne
  obtain ⟨P, hP, hAP, rfl, rfl, rfl, -⟩ := approach_init_inv hA
  obtain ⟨el, hel, K, k1, k2, k3⟩ := prop_ellipse H hn hra rfl
  refine ⟨el, cPos (el.h ^ 2 / A.P.GM) el.e u (V3.cross w u), cVel (A.P.GM / el.h) el.e u (V3.cross w u), _, hel, fun t =>
    ⟨K.pos t, K.velocity t, conic_twoBody K.gm K.hpos K.uu K.ww K.uw (K.den t), ?_, ?_, ?_⟩⟩
  · obtain ⟨U, hU, hUn⟩ := K.velocity_norm t
    rw [K.velocity t] at hU
    rw [Option.some.inj hU, hUn, ← cVel_eq, EllipseOK.norm_polar K.uu K.ww K.uw]
    unfold EllipseOK.spd
    rw [K.spd_sq]
  · have huw : V3.dot u Hv = 0 := by rw [hHw, V3.dot_smul_right, H.uw, mul_zero]
    have hqw : V3.dot (V3.cross w u) Hv = 0 := by
      rw [hHw, V3.dot_smul_right]
      have : V3.dot (V3.cross w u) w = 0 := by rw [V3.dot_comm]; exact V3.dot_cross_left _ _
      rw [this, mul_zero]
    generalize V3.cross w u = q at *
    have key : ∀ a b : ℝ, V3.dot (a • (cos t • u + sin t • q) + b • ((-sin t) • u + cos t • q)) Hv =
        (a * cos t - b * sin t) * V3.dot u Hv + (a * sin t + b * cos t) * V3.dot q Hv := by
      intro a b
      simp only [V3.dot, V3.add_x, V3.add_y, V3.add_z, V3.smul_x, V3.smul_y, V3.smul_z]; ring
    rw [key, huw, hqw]; ring
  · rw [← cVel_eq]
    unfold cPos
    generalize el.h ^ 2 / A.P.GM / (1 + el.e * cos t) = r
    generalize A.P.GM / el.h * (1 + el.e * cos t) = vt
    generalize A.P.GM / el.h * el.e * sin t = vr
    generalize EllipseOK.spd A.P.GM el t * _ = vr'
    change _ = (1 / kap) • _
    generalize V3.cross w u = q at *
    have key : ∀ a b : ℝ, V3.cross (r • (cos t • u + sin t • q)) (a • (cos t • u + sin t • q) + b • ((-sin t) • u + cos t • q)) =
        (r * b) • V3.cross u q := by
      intro a b
      have sc := sin_sq_add_cos_sq t
      ext <;> simp only [V3.cross, V3.add_x, V3.add_y, V3.add_z, V3.smul_x, V3.smul_y, V3.smul_z]
      · linear_combination (r * b * (u.y * q.z - u.z * q.y)) * sc
      · linear_combination (r * b * (u.z * q.x - u.x * q.z)) * sc
      · linear_combination (r * b * (u.x * q.y - u.y * q.x)) * sc
    rw [key, key, V3.smul_smul]
    congr 1; ring

/-- Finding behind C68: the computed velocity points outward at every anomaly, also on the inbound half of the orbit and
at the apsides, so it is never the velocity of the motion there. -/
theorem C68_always_outbound (name : String) (v : V3) (rp psi apo : ℝ) (hEI : Option ℝ) (A : Approach) (Hv : V3)
    (hA : Approach.init name v rp psi false hEI = .ok A) (hv : v ≠ 0) (hrp : 0 < rp) (hH : A.hVec = some Hv)
    (hne : Hv.x ≠ 0 ∨ Hv.y ≠ 0) (hra : 0 < A.P.RP + apo * 1000) (t : ℝ) :
    ∃ el R U, (PropOrbiter.mk A apo).elements = some el ∧ orbitPos A.P.GM el t = some R ∧ orbitVel A.P.GM el t = some U ∧
      0 < V3.dot R U := by
  obtain ⟨V, e, bb, h, d, u, w, H, hn, hHw⟩ := approach_facts hA hv hrp hH hne
  obtain ⟨P, hP, hAP, rfl, rfl, rfl, -⟩ := approach_init_inv hA
  obtain ⟨el, hel, K, k1, k2, k3⟩ := prop_ellipse H hn hra rfl
  refine ⟨el, _, _, hel, K.pos t, K.velocity t, ?_⟩
  obtain ⟨q1, q2⟩ := K.ratio t
  have hk := kap_gt
  have hr := K.rad_pos t
  have hs := K.spd_pos t
  have hx0 : 0 < el.h / (EllipseOK.rad A.P.GM el t * EllipseOK.spd A.P.GM el t) / kap := by positivity
  have hx1 : el.h / (EllipseOK.rad A.P.GM el t * EllipseOK.spd A.P.GM el t) / kap < 1 := by
    rw [div_lt_one (by linarith)]; linarith
  have hsq : 0 < sqrt (1 - (el.h / (EllipseOK.rad A.P.GM el t * EllipseOK.spd A.P.GM el t) / kap) ^ 2) :=
    sqrt_pos.mpr (by nlinarith)
  obtain ⟨c1, c2⟩ := cross_unit H.uu H.ww H.uw
  have sc := sin_sq_add_cos_sq t
  unfold cPos
  change 0 < V3.dot (EllipseOK.rad A.P.GM el t • _) _
  generalize EllipseOK.rad A.P.GM el t = r at *
  have hvr : 0 < EllipseOK.spd A.P.GM el t * sqrt (1 - (el.h / (r * EllipseOK.spd A.P.GM el t) / kap) ^ 2) := by positivity
  generalize EllipseOK.spd A.P.GM el t * sqrt (1 - (el.h / (r * EllipseOK.spd A.P.GM el t) / kap) ^ 2) = vr at *
  generalize A.P.GM / el.h * (1 + el.e * cos t) / kap = vt at *
  generalize V3.cross w u = q at *
  have : V3.dot (r • (cos t • u + sin t • q)) (vr • (cos t • u + sin t • q) + vt • ((-sin t) • u + cos t • q)) =
      r * ((cos t * (vr * cos t - vt * sin t)) * V3.dot u u + (cos t * (vr * sin t + vt * cos t) + sin t * (vr * cos t - vt * sin t)) * V3.dot u q
        + (sin t * (vr * sin t + vt * cos t)) * V3.dot q q) := by
    simp only [V3.dot, V3.add_x, V3.add_y, V3.add_z, V3.smul_x, V3.smul_y, V3.smul_z]; ring
  rw [this, H.uu, c1, c2]
  have e2 : r * (cos t * (vr * cos t - vt * sin t) * 1 + (cos t * (vr * sin t + vt * cos t) + sin t * (vr * cos t - vt * sin t)) * 0 +
      sin t * (vr * sin t + vt * cos t) * 1) = r * vr := by linear_combination (r * vr) * sc
  rw [e2]; positivity

end AMAT.Props
