import Verif.Props.ArrivalOrbit

/-
Properties C51 and C52: entry longitude, atmosphere-relative velocity and heading; and concrete arrivals that meet the
hypotheses of C46–C52.
-/

noncomputable section

open Classical

namespace AMAT.Props

open Real

/-! ### Concrete arrivals: polar arrival at Earth along ±x -/

/-- A polar arrival at Earth: body-inertial arrival direction `(s, 0, 0)` with `s = ±1`, 10 km/s, aim angle zero. -/
theorem earth_polar {s rp hE : ℝ} (hs : s = 1 ∨ s = -1) (hrp : 0 < rp) :
    ∃ A V e b h d u w, Approach.init "EARTH" ⟨0, 10 * s, 0⟩ rp 0 true (some hE) = .ok A ∧ ApproachCore A V e b h d u w ∧
      V = 10000 ∧ d = ⟨s, 0, 0⟩ ∧ u = ⟨s * cos b, 0, -sin b⟩ ∧ w = ⟨0, -s, 0⟩ ∧ A.P.RP = 6371e3 ∧ A.P.OMEGA = 7.272205e-5 ∧
      A.rp = rp := by
  obtain ⟨P, hP⟩ := (C01_planet_names "EARTH").1.mpr (by simp [Spec.bodies])
  have hss : s ^ 2 = 1 := by rcases hs with rfl | rfl <;> norm_num
  have ha0 : P.a0 = 0 := by simp [Planet.init] at hP; subst hP; simp [Planet.withScales]
  have hd0 : P.d0 = π / 2 := by
    have : P.d0 = 90.0 * π / 180.0 := by simp [Planet.init] at hP; subst hP; simp [Planet.withScales]; norm_num
    rw [this]; norm_num; ring
  have hRP : P.RP = 6371e3 := by simp [Planet.init] at hP; subst hP; rfl
  have hOM : P.OMEGA = 7.272205e-5 := by simp [Planet.init] at hP; subst hP; rfl
  set A : Approach := ⟨P, ⟨0, 10 * s, 0⟩, rp, 0, some hE⟩ with hAd
  have hA : Approach.init "EARTH" ⟨0, 10 * s, 0⟩ rp 0 true (some hE) = .ok A := by
    unfold Approach.init; rw [hP]; rfl
  have hv : A.vInfIcrfKms ≠ 0 := by
    intro h0
    have := congrArg V3.y h0
    simp only [hAd, V3.zero_y] at this
    have : s = 0 := by linarith
    rw [this] at hss; norm_num at hss
  obtain ⟨V, e, b, h, d, u, w, H⟩ := approach_core A (planet_gm_pos hP) hv hrp
  have hbi : A.vInfBi = ⟨10000 * s, 0, 0⟩ := by
    unfold Approach.vInfBi Approach.vInfBiKms icrfToBi
    rw [mul_mulVec]
    have h1 : A.P.a0 = 0 := ha0
    have h2 : A.P.d0 = π / 2 := hd0
    rw [h1, h2]
    ext <;> simp [Mat3.mulVec, R1, R3, V3.dot, hAd]; ring
  have hV : V = 10000 := by
    rw [H.hV, ← vInfBi_norm, hbi]
    apply V3.norm_eq_of_sq (by norm_num)
    simp only [V3.dot]; linear_combination 100000000 * hss
  have hx : d = ⟨s, 0, 0⟩ := by
    have h1 := H.hvd
    rw [hbi, hV] at h1
    have hx := congrArg V3.x h1
    have hy := congrArg V3.y h1
    have hz := congrArg V3.z h1
    simp only [V3.smul_x, V3.smul_y, V3.smul_z] at hx hy hz
    ext <;> simp only <;> linarith
  have c1 : cos A.phi1 = s ∧ sin A.phi1 = 0 := by
    have a1 := arctan2_cos A.vInfBi.y A.vInfBi.x
    have a2 := arctan2_sin A.vInfBi.y A.vInfBi.x
    rw [hbi] at a1 a2
    have hq : sqrt ((10000 * s) ^ 2 + 0 ^ 2) = 10000 := by
      rw [show (10000 * s) ^ 2 + 0 ^ 2 = 10000 ^ 2 * s ^ 2 by ring, hss, mul_one, sqrt_sq (by norm_num)]
    simp only at a1 a2
    rw [hq] at a1 a2
    have hp : A.phi1 = arctan2 0 (10000 * s) := by unfold Approach.phi1; rw [hbi]
    rw [hp]
    constructor <;> linarith
  have c2 : cos A.phi2 = 0 ∧ sin A.phi2 = 1 := by
    have h1 := H.hd
    rw [hx, c1.1, c1.2] at h1
    have hx := congrArg V3.x h1
    have hz := congrArg V3.z h1
    simp only at hx hz
    have : s * (sin A.phi2 - 1) = 0 := by linarith
    rcases mul_eq_zero.mp this with h0 | h0
    · rw [h0] at hss; norm_num at hss
    · exact ⟨hz.symm, by linarith⟩
  have hu : u = ⟨s * cos b, 0, -sin b⟩ := by
    have h1 := H.hu
    unfold Approach.rpUnit at h1
    rw [H.hb] at h1
    simp only [bind, Option.bind, pure, Option.some.injEq] at h1
    rw [← h1, c1.1, c1.2, c2.1, c2.2]
    have hp : A.psi = 0 := rfl
    rw [hp, cos_zero, sin_zero]
    ext <;> simp
  have hw : w = ⟨0, -s, 0⟩ := by
    have h1 := H.ws
    rw [hu, hx] at h1
    have hsb := H.sb
    have hx := congrArg V3.x h1
    have hy := congrArg V3.y h1
    have hz := congrArg V3.z h1
    simp only [V3.cross, V3.smul_x, V3.smul_y, V3.smul_z] at hx hy hz
    ext <;> simp only
    · have : sin b * w.x = 0 := by linarith
      exact (mul_eq_zero.mp this).resolve_left hsb.ne'
    · have : sin b * (w.y + s) = 0 := by linarith
      have := (mul_eq_zero.mp this).resolve_left hsb.ne'
      linarith
    · have : sin b * w.z = 0 := by linarith
      exact (mul_eq_zero.mp this).resolve_left hsb.ne'
  exact ⟨A, V, e, b, h, d, u, w, hA, H, hV, hx, hu, hw, hRP, hOM, rfl⟩

/-- Non-vacuity of C47–C50 and C67: a polar arrival at Earth with periapsis at the surface and interface at 120 km. -/
example : ∃ A Hv, Approach.init "EARTH" ⟨0, 10 * 1, 0⟩ 6371e3 0 true (some 120e3) = .ok A ∧ A.hVec = some Hv ∧
    (Hv.x ≠ 0 ∨ Hv.y ≠ 0) ∧ (A.vInfBi.x ≠ 0 ∨ A.vInfBi.y ≠ 0) ∧ (6371e3 : ℝ) ≤ A.P.RP + 120e3 := by
  obtain ⟨A, V, e, b, h, d, u, w, hA, H, hV, hd, hu, hw, hRP, -, hrp⟩ :=
    earth_polar (s := 1) (rp := 6371e3) (hE := 120e3) (Or.inl rfl) (by norm_num)
  refine ⟨A, _, hA, H.hhv, Or.inr ?_, Or.inl ?_, by rw [hRP]; norm_num⟩
  · have := H.sb; have := H.rp; have := H.vpos
    rw [hw]; simp only [V3.smul_y]
    have : 0 < A.rp * V * sin b := by positivity
    linarith
  · rw [H.hvd, hd, hV]; simp

/-! ### C51 -/

/-- Latitude and longitude of a unit vector as the code computes them. -/
theorem lonlat_up {n : V3} (hn : V3.dot n n = 1) (hx : n.x ≠ 0) :
    cos (arcsin n.z) * cos (arctan (n.y / n.x)) = |n.x| ∧
    cos (arcsin n.z) * sin (arctan (n.y / n.x)) = |n.x| * (n.y / n.x) ∧ sin (arcsin n.z) = n.z := by
  unfold V3.dot at hn
  have hx2 : 0 < n.x ^ 2 := by positivity
  have hz : -1 ≤ n.z ∧ n.z ≤ 1 := by constructor <;> nlinarith [sq_nonneg n.x, sq_nonneg n.y]
  have h1 : cos (arcsin n.z) = sqrt (n.x ^ 2 + n.y ^ 2) := by
    rw [cos_arcsin]; congr 1; linarith
  have h2 : sqrt (1 + (n.y / n.x) ^ 2) = sqrt (n.x ^ 2 + n.y ^ 2) / |n.x| := by
    rw [← sqrt_sq_eq_abs, ← sqrt_div (by positivity)]; congr 1; field_simp
  have h3 : 0 < sqrt (n.x ^ 2 + n.y ^ 2) := sqrt_pos.mpr (by positivity)
  have h4 : 0 < |n.x| := abs_pos.mpr hx
  refine ⟨?_, ?_, sin_arcsin hz.1 hz.2⟩
  · rw [h1, cos_arctan, h2]; field_simp
  · rw [h1, sin_arctan, h2]; field_simp

theorem entry_unit {A : Approach} {hE : ℝ} {R : V3} (hR : A.rVecEntry hE = some R) (h0 : R ≠ 0) :
    A.rEntryUnit hE = some (Spec.radial R) := by
  unfold Approach.rEntryUnit; rw [hR]; exact npUnit_some h0

/-- What the code computes for every entry position off the plane `x = 0`. -/
theorem entry_atm {A : Approach} {hE : ℝ} {R U : V3} (hR : A.rVecEntry hE = some R) (hU : A.vVecEntry hE = some U)
    (hx : R.x ≠ 0) :
    A.latitudeEntry hE = some (arcsin (Spec.radial R).z) ∧
    A.longitudeEntry hE = some (arctan ((Spec.radial R).y / (Spec.radial R).x)) ∧
    A.vVecEntryAtm hE = some (U - (|R.x| / R.x) • V3.cross (Spec.spin A.P.OMEGA) R) := by
  have h0 : R ≠ 0 := by rintro rfl; exact hx rfl
  have hn := V3.norm_pos h0
  have hu := entry_unit hR h0
  have hux : (Spec.radial R).x ≠ 0 := mul_ne_zero (one_div_pos.mpr hn).ne' hx
  have hlat : A.latitudeEntry hE = some (arcsin (Spec.radial R).z) := by
    unfold Approach.latitudeEntry; rw [hu]; rfl
  have hlon : A.longitudeEntry hE = some (arctan ((Spec.radial R).y / (Spec.radial R).x)) := by
    unfold Approach.longitudeEntry; rw [hu]; simp only [bind, Option.bind]; rw [npDiv_some hux]; rfl
  refine ⟨hlat, hlon, ?_⟩
  obtain ⟨a1, a2, a3⟩ := lonlat_up (V3.unit_dot_self h0) hux
  unfold Approach.vVecEntryAtm
  rw [hU, hR, hlat, hlon]
  simp only [bind, Option.bind, pure, Option.some.injEq]
  change cos (arcsin (Spec.radial R).z) * cos (arctan ((Spec.radial R).y / (Spec.radial R).x)) = |(Spec.radial R).x| at a1
  change cos (arcsin (Spec.radial R).z) * sin (arctan ((Spec.radial R).y / (Spec.radial R).x)) =
    |(Spec.radial R).x| * ((Spec.radial R).y / (Spec.radial R).x) at a2
  have b1 : V3.norm R * |(Spec.radial R).x| = |R.x| := by
    simp only [Spec.radial, V3.smul_x]
    rw [abs_mul, abs_of_pos (one_div_pos.mpr hn)]; field_simp
  have b2 : (Spec.radial R).y / (Spec.radial R).x = R.y / R.x := by
    simp only [Spec.radial, V3.smul_x, V3.smul_y]; field_simp
  ext <;> simp only [V3.sub_x, V3.sub_y, V3.sub_z, V3.smul_x, V3.smul_y, V3.smul_z, V3.cross, Spec.spin]
  · have : V3.norm R * A.P.OMEGA * cos (arcsin (Spec.radial R).z) * (-sin (arctan ((Spec.radial R).y / (Spec.radial R).x))) =
      -(A.P.OMEGA * (V3.norm R * (cos (arcsin (Spec.radial R).z) * sin (arctan ((Spec.radial R).y / (Spec.radial R).x))))) := by ring
    rw [this, a2, b2, ← mul_assoc (V3.norm R), b1]
    field_simp
    ring
  · have : V3.norm R * A.P.OMEGA * cos (arcsin (Spec.radial R).z) * cos (arctan ((Spec.radial R).y / (Spec.radial R).x)) =
      A.P.OMEGA * (V3.norm R * (cos (arcsin (Spec.radial R).z) * cos (arctan ((Spec.radial R).y / (Spec.radial R).x)))) := by ring
    rw [this, a1, b1]
    field_simp
    ring
  · ring

/-- C51 (partial: entry positions with `x > 0` only; see `C51_lost_quadrant`).  The reported latitude and longitude are those
of the entry position, and the atmosphere-relative velocity is the inertial velocity minus `Ω × R`. -/
theorem C51_longitude_partial (A : Approach) (hE : ℝ) (R U : V3) (hR : A.rVecEntry hE = some R) (hU : A.vVecEntry hE = some U)
    (hx : 0 < R.x) :
    ∃ lon lat, A.longitudeEntry hE = some lon ∧ A.latitudeEntry hE = some lat ∧ R = V3.norm R • Spec.up lon lat ∧
      A.vVecEntryAtm hE = some (U - V3.cross (Spec.spin A.P.OMEGA) R) := by
  obtain ⟨h1, h2, h3⟩ := entry_atm hR hU hx.ne'
  have h0 : R ≠ 0 := by rintro rfl; exact lt_irrefl _ hx
  have hn := V3.norm_pos h0
  have hux : 0 < (Spec.radial R).x := mul_pos (one_div_pos.mpr hn) hx
  obtain ⟨a1, a2, a3⟩ := lonlat_up (n := Spec.radial R) (V3.unit_dot_self h0) hux.ne'
  refine ⟨_, _, h2, h1, ?_, ?_⟩
  · rw [abs_of_pos hux] at a1 a2
    rw [mul_div_cancel₀ _ hux.ne'] at a2
    unfold Spec.up
    rw [a1, a2, a3]
    ext <;> simp only [Spec.radial, V3.smul_x, V3.smul_y, V3.smul_z] <;> field_simp
  · rw [h3, abs_of_pos hx, div_self hx.ne', V3.one_smul]

/-- Finding behind C51: for entry positions with `x < 0` the reported longitude is off by `π`, and the reported
atmosphere-relative velocity is the inertial velocity PLUS `Ω × R`, which is never right on a rotating planet. -/
theorem C51_lost_quadrant (A : Approach) (hE : ℝ) (R U : V3) (hR : A.rVecEntry hE = some R) (hU : A.vVecEntry hE = some U)
    (hx : R.x < 0) (hO : A.P.OMEGA ≠ 0) :
    ∃ lon lat Ua, A.longitudeEntry hE = some lon ∧ A.latitudeEntry hE = some lat ∧ R = V3.norm R • Spec.up (lon + π) lat ∧
      R ≠ V3.norm R • Spec.up lon lat ∧
      A.vVecEntryAtm hE = some Ua ∧ Ua = U + V3.cross (Spec.spin A.P.OMEGA) R ∧
      Ua ≠ U - V3.cross (Spec.spin A.P.OMEGA) R := by
  obtain ⟨h1, h2, h3⟩ := entry_atm hR hU hx.ne
  have h0 : R ≠ 0 := by rintro rfl; exact lt_irrefl _ hx
  have hn := V3.norm_pos h0
  have hux : (Spec.radial R).x < 0 := mul_neg_of_pos_of_neg (one_div_pos.mpr hn) hx
  obtain ⟨a1, a2, a3⟩ := lonlat_up (n := Spec.radial R) (V3.unit_dot_self h0) hux.ne
  rw [abs_of_neg hux] at a1 a2
  have a2' : cos (arcsin (Spec.radial R).z) * sin (arctan ((Spec.radial R).y / (Spec.radial R).x)) = -(Spec.radial R).y := by
    rw [a2]; have := hux.ne; field_simp
  refine ⟨_, _, _, h2, h1, ?_, ?_, h3, ?_, ?_⟩
  · unfold Spec.up
    rw [cos_add_pi, sin_add_pi, mul_neg, mul_neg, a1, a2', a3]
    ext <;> simp only [Spec.radial, V3.smul_x, V3.smul_y, V3.smul_z] <;> field_simp
  · intro hc
    have := congrArg V3.x hc
    unfold Spec.up at this
    simp only [V3.smul_x] at this
    rw [a1] at this
    nlinarith [mul_pos hn (neg_pos.mpr hux)]
  · rw [abs_of_neg hx, neg_div, div_self hx.ne]
    ext <;> simp only [V3.add_x, V3.add_y, V3.add_z, V3.sub_x, V3.sub_y, V3.sub_z, V3.smul_x, V3.smul_y, V3.smul_z] <;> ring
  · rw [abs_of_neg hx, neg_div, div_self hx.ne]
    intro hc
    have := congrArg V3.y hc
    simp only [V3.sub_y, V3.smul_y, V3.cross, Spec.spin] at this
    have : A.P.OMEGA * R.x = 0 := by linarith
    rcases mul_eq_zero.mp this with h | h
    · exact hO h
    · linarith

/-- The finding is reachable: a polar arrival at Earth entering on the far side (`x < 0`). -/
theorem C51_lost_quadrant_reachable : ∃ A hE R U, Approach.init "EARTH" ⟨0, 10 * (-1), 0⟩ 6371e3 0 true (some hE) = .ok A ∧
    A.rVecEntry hE = some R ∧ A.vVecEntry hE = some U ∧ R.x < 0 ∧ A.P.OMEGA ≠ 0 := by
  obtain ⟨A, V, e, b, h, d, u, w, hA, H, hV, hd, hu, hw, hRP, hOM, hrp⟩ :=
    earth_polar (s := -1) (rp := 6371e3) (hE := 0) (Or.inr rfl) (by norm_num)
  have hn : w.x ≠ 0 ∨ w.y ≠ 0 := by right; rw [hw]; norm_num
  have hr : A.rEI 0 = A.rp := by unfold Approach.rEI; rw [hRP, hrp, add_zero]
  obtain ⟨t, ht, ht1, ht2, hc, hre, hR, hU⟩ := Core.entry H hn (hE := 0) hr.ge
  refine ⟨A, 0, _, _, hA, hR, hU, ?_, by rw [hOM]; norm_num⟩
  -- entry at periapsis
  have hrpp := H.rp; have hg := H.gm; have he := H.e1
  have hcos : cos t = 1 := by
    rw [hr, H.hsq] at hre
    rw [div_eq_iff hc.ne', div_eq_iff hg.ne'] at hre
    have : A.P.GM * A.rp * e * (cos t - 1) = 0 := by linarith
    have hne : A.P.GM * A.rp * e ≠ 0 := by positivity
    have := (mul_eq_zero.mp this).resolve_left hne
    linarith
  have hsin : sin t = 0 := by
    have := sin_sq_add_cos_sq t
    rw [hcos] at this
    have : sin t ^ 2 = 0 := by linarith
    exact pow_eq_zero_iff two_ne_zero |>.mp this
  unfold cPos
  rw [hre, hr, hcos, hsin, hu]
  simp only [V3.add_x, V3.smul_x]
  have hcb : 0 < cos b := by rw [H.cb]; positivity
  have := mul_pos hrpp hcb
  linarith

/-- Case for `C51_lost_quadrant`: this arrival. -/
example : ∃ A hE R lon lat, Approach.init "EARTH" ⟨0, 10 * (-1), 0⟩ 6371e3 0 true (some hE) = .ok A ∧
    A.rVecEntry hE = some R ∧ A.longitudeEntry hE = some lon ∧ A.latitudeEntry hE = some lat ∧
    R = V3.norm R • Spec.up (lon + π) lat ∧ R ≠ V3.norm R • Spec.up lon lat := by
  obtain ⟨A, hE, R, U, h1, h2, h3, h4, h5⟩ := C51_lost_quadrant_reachable
  obtain ⟨lon, lat, -, e1, e2, e3, e4, -⟩ := C51_lost_quadrant A hE R U h2 h3 h4 h5
  exact ⟨A, hE, R, lon, lat, h1, h2, e1, e2, e3, e4⟩

/-! ### C52 -/

/-- East direction at an entry position, from the code's longitude. -/
theorem eastAt_eq {R : V3} (hx : 0 < R.x) :
    (⟨-sin (arctan ((Spec.radial R).y / (Spec.radial R).x)), cos (arctan ((Spec.radial R).y / (Spec.radial R).x)), 0⟩ : V3) =
      Spec.eastAt R := by
  have h0 : R ≠ 0 := by rintro rfl; exact lt_irrefl _ hx
  have hn := V3.norm_pos h0
  have b2 : (Spec.radial R).y / (Spec.radial R).x = R.y / R.x := by
    simp only [Spec.radial, V3.smul_x, V3.smul_y]; field_simp
  have h2 : sqrt (1 + (R.y / R.x) ^ 2) = sqrt (R.x ^ 2 + R.y ^ 2) / R.x := by
    conv_rhs => rw [← sqrt_sq hx.le, sqrt_sq hx.le]
    rw [eq_div_iff hx.ne']
    conv_lhs => rw [← sqrt_sq hx.le]
    rw [sqrt_sq hx.le]
    have : sqrt (1 + (R.y / R.x) ^ 2) * R.x = sqrt (1 + (R.y / R.x) ^ 2) * sqrt (R.x ^ 2) := by rw [sqrt_sq hx.le]
    rw [this, ← sqrt_mul (by positivity)]
    congr 1; field_simp
  have h3 : 0 < sqrt (R.x ^ 2 + R.y ^ 2) := sqrt_pos.mpr (by positivity)
  have hc : V3.norm (V3.cross ⟨0, 0, 1⟩ R) = sqrt (R.x ^ 2 + R.y ^ 2) := by
    unfold V3.norm; congr 1; simp only [V3.dot, V3.cross]; ring
  unfold Spec.eastAt
  rw [hc, b2, sin_arctan, cos_arctan, h2]
  ext <;> simp only [V3.smul_x, V3.smul_y, V3.smul_z, V3.cross]
  · field_simp; ring
  · field_simp; ring
  · ring

/-- What the code's heading really is, for every entry position with `x > 0` and non-vertical relative velocity: its cosine
is the cosine of the true heading times the cosine of the flight-path angle. -/
theorem C52_heading_relation (A : Approach) (hE : ℝ) (R U : V3) (hR : A.rVecEntry hE = some R) (hU : A.vVecEntry hE = some U)
    (hx : 0 < R.x) (hp : Spec.horizontal R (U - V3.cross (Spec.spin A.P.OMEGA) R) ≠ 0) :
    ∃ H g, A.headingEntryAtm hE = some H ∧ A.gammaEntryAtm hE = some g ∧ 0 ≤ H ∧ H ≤ π ∧
      sin g * (V3.norm R * V3.norm (U - V3.cross (Spec.spin A.P.OMEGA) R)) =
        V3.dot R (U - V3.cross (Spec.spin A.P.OMEGA) R) ∧ -(π / 2) ≤ g ∧ g ≤ π / 2 ∧
      cos H = cos g * cos (Spec.angle (Spec.horizontal R (U - V3.cross (Spec.spin A.P.OMEGA) R)) (Spec.eastAt R)) := by
  obtain ⟨h1, h2, h3⟩ := entry_atm hR hU hx.ne'
  rw [abs_of_pos hx, div_self hx.ne', V3.one_smul] at h3
  set W := U - V3.cross (Spec.spin A.P.OMEGA) R with hW
  have h0 : R ≠ 0 := by rintro rfl; exact lt_irrefl _ hx
  have hn := V3.norm_pos h0
  have hu := entry_unit hR h0
  set n := Spec.radial R with hnd
  have hnn : V3.dot n n = 1 := V3.unit_dot_self h0
  have hW0 : W ≠ 0 := by
    intro hc
    apply hp
    unfold Spec.horizontal
    rw [hc]
    ext <;> simp [V3.dot]
  have hWn := V3.norm_pos hW0
  have hwu : A.vEntryAtmUnit hE = some ((1 / V3.norm W) • W) := by
    unfold Approach.vEntryAtmUnit; rw [h3]; exact npUnit_some hW0
  set m := (1 / V3.norm W) • W with hm
  have hmm : V3.dot m m = 1 := V3.unit_dot_self hW0
  have hb := V3.dot_unit_le hnn hmm
  have hg : A.gammaEntryAtm hE = some (arcsin (V3.dot n m)) := by
    unfold Approach.gammaEntryAtm
    rw [hu, hwu]
    simp only [bind, Option.bind]
    rw [npArccos_some hb]
    simp only [pure, Option.some.injEq]
    rw [arccos_eq_pi_div_two_sub_arcsin]; ring
  set E := Spec.eastAt R with hEd
  have hcp : V3.cross ⟨0, 0, 1⟩ R ≠ 0 := by
    intro hc
    have := congrArg V3.y hc
    simp only [V3.cross, V3.zero_y] at this
    linarith
  have hEE : V3.dot E E = 1 := V3.unit_dot_self hcp
  have hEn : V3.norm E = 1 := V3.norm_of_dot_one hEE
  -- projection
  have hproj : m - V3.dot m n • n = (1 / V3.norm W) • Spec.horizontal R W := by
    unfold Spec.horizontal
    rw [hm, V3.dot_smul_left]
    ext <;> simp only [V3.sub_x, V3.sub_y, V3.sub_z, V3.smul_x, V3.smul_y, V3.smul_z, ← hnd] <;> ring
  have hpp : V3.norm (m - V3.dot m n • n) = cos (arcsin (V3.dot n m)) := by
    rw [cos_arcsin]
    unfold V3.norm
    congr 1
    have : V3.dot (m - V3.dot m n • n) (m - V3.dot m n • n) = V3.dot m m - 2 * V3.dot m n * V3.dot m n + V3.dot m n ^ 2 * V3.dot n n := by
      simp only [V3.dot, V3.sub_x, V3.sub_y, V3.sub_z, V3.smul_x, V3.smul_y, V3.smul_z]; ring
    rw [this, hmm, hnn, V3.dot_comm n m]; ring
  have hpn : 0 < V3.norm (Spec.horizontal R W) := V3.norm_pos hp
  have hcg : cos (arcsin (V3.dot n m)) = 1 / V3.norm W * V3.norm (Spec.horizontal R W) := by
    rw [← hpp, hproj, V3.norm_smul, abs_of_pos (one_div_pos.mpr hWn)]
  have habs := V3.abs_dot_le (Spec.horizontal R W) E
  rw [hEn, mul_one, abs_le] at habs
  have hcosA : cos (Spec.angle (Spec.horizontal R W) E) = V3.dot (Spec.horizontal R W) E / V3.norm (Spec.horizontal R W) := by
    unfold Spec.angle
    rw [hEn, mul_one, cos_arccos]
    · rw [le_div_iff₀ hpn]; linarith [habs.1]
    · rw [div_le_iff₀ hpn]; linarith [habs.2]
  have hval : V3.dot (m - V3.dot m n • n) E = cos (arcsin (V3.dot n m)) * cos (Spec.angle (Spec.horizontal R W) E) := by
    rw [hproj, V3.dot_smul_left, hcg, hcosA]; field_simp
  have hrange : -1 ≤ V3.dot (m - V3.dot m n • n) E ∧ V3.dot (m - V3.dot m n • n) E ≤ 1 := by
    rw [hval]
    have := cos_arcsin_nonneg (V3.dot n m)
    have c1 := cos_le_one (arcsin (V3.dot n m))
    have c2 := cos_le_one (Spec.angle (Spec.horizontal R W) E)
    have c3 := neg_one_le_cos (Spec.angle (Spec.horizontal R W) E)
    constructor <;> nlinarith
  refine ⟨arccos (V3.dot (m - V3.dot m n • n) E), arcsin (V3.dot n m), ?_, hg, arccos_nonneg _, arccos_le_pi _, ?_,
    neg_pi_div_two_le_arcsin _, arcsin_le_pi_div_two _, ?_⟩
  · unfold Approach.headingEntryAtm
    rw [hu, hwu, h2]
    simp only [bind, Option.bind]
    rw [Lits.l00, eastAt_eq hx, ← hEd, npArccos_some hrange]
  · rw [sin_arcsin hb.1 hb.2, hnd, hm, Spec.radial, V3.dot_smul_left, V3.dot_smul_right]; field_simp
  · rw [cos_arccos hrange.1 hrange.2, hval]

/-- C52 (partial: horizontal flight and `x > 0` only, see `C52_heading_wrong`): the heading is the angle between the horizontal
velocity and the local eastward direction. -/
theorem C52_heading_partial (A : Approach) (hE : ℝ) (R U : V3) (hR : A.rVecEntry hE = some R) (hU : A.vVecEntry hE = some U)
    (hx : 0 < R.x) (hW : U - V3.cross (Spec.spin A.P.OMEGA) R ≠ 0) (hhor : V3.dot R U = 0) :
    A.headingEntryAtm hE =
      some (Spec.angle (Spec.horizontal R (U - V3.cross (Spec.spin A.P.OMEGA) R)) (Spec.eastAt R)) := by
  have h0 : R ≠ 0 := by rintro rfl; exact lt_irrefl _ hx
  have hn := V3.norm_pos h0
  have hd : V3.dot R (U - V3.cross (Spec.spin A.P.OMEGA) R) = 0 := by
    rw [← hhor]; simp only [V3.dot, V3.cross, Spec.spin, V3.sub_x, V3.sub_y, V3.sub_z]; ring
  have hp : Spec.horizontal R (U - V3.cross (Spec.spin A.P.OMEGA) R) ≠ 0 := by
    unfold Spec.horizontal Spec.radial
    rw [V3.dot_smul_right, V3.dot_comm, hd]
    intro hc
    apply hW
    rw [← hc]; ext <;> simp
  obtain ⟨H, g, e1, e2, e3, e4, e5, e6, e7, e8⟩ := C52_heading_relation A hE R U hR hU hx hp
  have hWn := V3.norm_pos hW
  rw [hd] at e5
  have hsg : sin g = 0 := (mul_eq_zero.mp e5).resolve_right (by positivity)
  have hg : g = 0 := by
    have := arcsin_sin e6 e7
    rw [hsg, arcsin_zero] at this; exact this.symm
  rw [hg, cos_zero, one_mul] at e8
  rw [e1]
  congr 1
  refine injOn_cos ⟨e3, e4⟩ ⟨?_, ?_⟩ e8
  · exact arccos_nonneg _
  · exact arccos_le_pi _

/-- Finding behind C52: whenever the relative velocity has a vertical part and is not due north or south, the reported
heading is not the angle between the horizontal velocity and east. -/
theorem C52_heading_wrong (A : Approach) (hE : ℝ) (R U : V3) (hR : A.rVecEntry hE = some R) (hU : A.vVecEntry hE = some U)
    (hx : 0 < R.x) (hver : V3.dot R U ≠ 0)
    (hew : V3.dot (Spec.horizontal R (U - V3.cross (Spec.spin A.P.OMEGA) R)) (Spec.eastAt R) ≠ 0) :
    A.headingEntryAtm hE ≠
      some (Spec.angle (Spec.horizontal R (U - V3.cross (Spec.spin A.P.OMEGA) R)) (Spec.eastAt R)) := by
  have h0 : R ≠ 0 := by rintro rfl; exact lt_irrefl _ hx
  have hn := V3.norm_pos h0
  have hd : V3.dot R (U - V3.cross (Spec.spin A.P.OMEGA) R) = V3.dot R U := by
    simp only [V3.dot, V3.cross, Spec.spin, V3.sub_x, V3.sub_y, V3.sub_z]; ring
  have hp : Spec.horizontal R (U - V3.cross (Spec.spin A.P.OMEGA) R) ≠ 0 := by
    intro hc; rw [hc] at hew; exact hew (by simp [V3.dot])
  obtain ⟨H, g, e1, e2, e3, e4, e5, e6, e7, e8⟩ := C52_heading_relation A hE R U hR hU hx hp
  rw [e1]
  intro hc
  have hc := Option.some.inj hc
  rw [hc] at e8
  have hcp : V3.cross ⟨0, 0, 1⟩ R ≠ 0 := by
    intro hc
    have := congrArg V3.y hc
    simp only [V3.cross, V3.zero_y] at this
    linarith
  have hEn : V3.norm (Spec.eastAt R) = 1 := V3.norm_of_dot_one (V3.unit_dot_self hcp)
  have hpn := V3.norm_pos hp
  have hcos0 : cos (Spec.angle (Spec.horizontal R (U - V3.cross (Spec.spin A.P.OMEGA) R)) (Spec.eastAt R)) ≠ 0 := by
    unfold Spec.angle
    have habs := V3.abs_dot_le (Spec.horizontal R (U - V3.cross (Spec.spin A.P.OMEGA) R)) (Spec.eastAt R)
    rw [hEn, mul_one, abs_le] at habs
    rw [hEn, mul_one, cos_arccos]
    · exact div_ne_zero hew hpn.ne'
    · rw [le_div_iff₀ hpn]; linarith [habs.1]
    · rw [div_le_iff₀ hpn]; linarith [habs.2]
  have hcg : cos g = 1 := by
    have : (cos g - 1) * cos (Spec.angle (Spec.horizontal R (U - V3.cross (Spec.spin A.P.OMEGA) R)) (Spec.eastAt R)) = 0 := by
      linarith
    have := (mul_eq_zero.mp this).resolve_right hcos0
    linarith
  have hsg : sin g = 0 := by
    have := sin_sq_add_cos_sq g
    rw [hcg] at this
    have : sin g ^ 2 = 0 := by linarith
    exact pow_eq_zero_iff two_ne_zero |>.mp this
  rw [hsg, zero_mul, hd] at e5
  exact hver e5.symm

/-- The finding is reachable: a polar arrival at Earth with periapsis at the surface, entering before periapsis. -/
theorem C52_heading_wrong_reachable : ∃ A hE R U, Approach.init "EARTH" ⟨0, 10 * 1, 0⟩ 6371e3 0 true (some hE) = .ok A ∧
    A.rVecEntry hE = some R ∧ A.vVecEntry hE = some U ∧ 0 < R.x ∧ V3.dot R U ≠ 0 ∧
    V3.dot (Spec.horizontal R (U - V3.cross (Spec.spin A.P.OMEGA) R)) (Spec.eastAt R) ≠ 0 ∧ 6371e3 ≤ A.P.RP + hE := by
  -- the scalar parameters do not depend on the interface altitude: read them off a first arrival
  obtain ⟨A0, V0, e0, b0, h00, d0, u0, w0, hA0, H0, hV0, -, -, -, hRP0, -, hrp0⟩ :=
    earth_polar (s := 1) (rp := 6371e3) (hE := 0) (Or.inl rfl) (by norm_num)
  set t0 := -((π / 2 - b0) / 2) with ht0
  set hE := 6371e3 * (1 + e0) / (1 + e0 * cos t0) - 6371e3 with hhE
  obtain ⟨A, V, e, b, h, d, u, w, hA, H, hV, hd, hu, hw, hRP, hOM, hrp⟩ :=
    earth_polar (s := 1) (rp := 6371e3) (hE := hE) (Or.inl rfl) (by norm_num)
  have hGM : A.P.GM = A0.P.GM := by
    obtain ⟨P, hP, hAP, -⟩ := approach_init_inv hA
    obtain ⟨P0, hP0, hAP0, -⟩ := approach_init_inv hA0
    rw [hP] at hP0
    injection hP0 with hP0
    rw [hAP, hAP0, hP0]
  have hee : e = e0 := by rw [H.heq, H0.heq, hV, hV0, hrp, hrp0, hGM]
  have hbe : b = b0 := by
    have h1 := H.cb; have h2 := H0.cb
    rw [hee] at h1
    exact injOn_cos ⟨H.b0.le, by linarith [H.bpi, pi_pos]⟩ ⟨H0.b0.le, by linarith [H0.bpi, pi_pos]⟩ (h1.trans h2.symm)
  rw [← hbe] at ht0
  rw [← hee] at hhE
  have hb0 := H.b0; have hbp := H.bpi; have he1 := H.e1; have hg := H.gm; have hh := H.hpos
  have hneg : t0 < 0 := by rw [ht0]; linarith
  have hlow : -(π / 2) < t0 := by rw [ht0]; linarith
  have hct : 0 < cos t0 := cos_pos_of_mem_Ioo ⟨by linarith, by linarith [pi_pos]⟩
  have hD : 0 < 1 + e * cos t0 := by positivity
  have hn : w.x ≠ 0 ∨ w.y ≠ 0 := by right; rw [hw]; norm_num
  have hrEI : A.rEI hE = 6371e3 * (1 + e) / (1 + e * cos t0) := by unfold Approach.rEI; rw [hRP, hhE]; ring
  have hle : A.rp ≤ A.rEI hE := by
    rw [hrEI, hrp, le_div_iff₀ hD]
    nlinarith [cos_le_one t0]
  obtain ⟨t, ht, ht1, ht2, hc, hre, hR, hU⟩ := Core.entry H hn hle
  -- the entry anomaly is t0
  have hcos : cos t = cos t0 := by
    rw [hrEI, H.hsq, hrp, div_div, div_eq_div_iff (by positivity) hD.ne'] at hre
    have hk : A.P.GM * 6371e3 * (1 + e) ≠ 0 := by positivity
    have : A.P.GM * 6371e3 * (1 + e) * (e * (cos t - cos t0)) = 0 := by linear_combination (-1) * hre
    have := (mul_eq_zero.mp this).resolve_left hk
    have := (mul_eq_zero.mp this).resolve_left (by linarith)
    linarith
  have htt : t = t0 := by
    have : -t = -t0 := injOn_cos ⟨by linarith, by linarith⟩ ⟨by linarith, by linarith [pi_pos]⟩ (by rw [cos_neg, cos_neg, hcos])
    linarith
  rw [htt] at hR hU hre
  have hq : V3.cross w u = ⟨sin b, 0, cos b⟩ := by
    rw [hw, hu]; ext <;> simp [V3.cross]
  have hr0 : 0 < h ^ 2 / A.P.GM / (1 + e * cos t0) := by positivity
  have hRe : cPos (h ^ 2 / A.P.GM) e u (V3.cross w u) t0 =
      (h ^ 2 / A.P.GM / (1 + e * cos t0)) • (⟨cos (b - t0), 0, -sin (b - t0)⟩ : V3) := by
    unfold cPos
    rw [hq, hu, cos_sub, sin_sub]
    ext <;> simp only [V3.add_x, V3.add_y, V3.add_z, V3.smul_x, V3.smul_y, V3.smul_z] <;> ring
  have hUy : (cVel (A.P.GM / h) e u (V3.cross w u) t0).y = 0 := by
    unfold cVel
    rw [hq, hu]
    simp only [V3.add_y, V3.smul_y]; ring
  have hcb : 0 < cos (b - t0) := cos_pos_of_mem_Ioo ⟨by rw [ht0]; linarith, by rw [ht0]; linarith⟩
  have hRx : 0 < (cPos (h ^ 2 / A.P.GM) e u (V3.cross w u) t0).x := by
    rw [hRe]; exact mul_pos hr0 hcb
  have hRy : (cPos (h ^ 2 / A.P.GM) e u (V3.cross w u) t0).y = 0 := by
    rw [hRe]; simp
  refine ⟨A, hE, _, _, hA, hR, hU, hRx, ?_, ?_, by rw [← hrp]; exact hle⟩
  · obtain ⟨-, -, -, -, -, l6, -⟩ := Core.laws H hD
    rw [l6]
    have hs : sin t0 < 0 := sin_neg_of_neg_of_neg_pi_lt hneg (by linarith [pi_pos])
    have : A.P.GM / h * e * sin t0 ≠ 0 := mul_ne_zero (by positivity) hs.ne
    exact mul_ne_zero hr0.ne' this
  · set R := cPos (h ^ 2 / A.P.GM) e u (V3.cross w u) t0 with hRd
    set U := cVel (A.P.GM / h) e u (V3.cross w u) t0 with hUd
    have hR0 : R ≠ 0 := by intro h0; rw [h0] at hRx; exact lt_irrefl _ hRx
    have hcp : V3.cross ⟨0, 0, 1⟩ R ≠ 0 := by
      intro hc
      have := congrArg V3.y hc
      simp only [V3.cross, V3.zero_y] at this
      linarith
    have hcn := V3.norm_pos hcp
    have hval : V3.dot (Spec.horizontal R (U - V3.cross (Spec.spin A.P.OMEGA) R)) (Spec.eastAt R) =
        1 / V3.norm (V3.cross ⟨0, 0, 1⟩ R) * (-(A.P.OMEGA * R.x ^ 2)) := by
      unfold Spec.horizontal Spec.eastAt Spec.radial
      generalize 1 / V3.norm (V3.cross ⟨0, 0, 1⟩ R) = k
      generalize 1 / V3.norm R = k2
      simp only [V3.dot, V3.cross, Spec.spin, V3.sub_x, V3.sub_y, V3.sub_z, V3.smul_x, V3.smul_y, V3.smul_z]
      rw [hRy, hUy]; ring
    rw [hval, hOM]
    have : (0:ℝ) < 7.272205e-5 * R.x ^ 2 := by positivity
    have := mul_pos (one_div_pos.mpr hcn) this
    linarith

/-- Cases for `C52_heading_wrong` and `C52_heading_relation`: this arrival. -/
example : ∃ A hE R U, Approach.init "EARTH" ⟨0, 10 * 1, 0⟩ 6371e3 0 true (some hE) = .ok A ∧
    A.rVecEntry hE = some R ∧ A.vVecEntry hE = some U ∧ (∃ H, A.headingEntryAtm hE = some H ∧ 0 ≤ H ∧ H ≤ π) ∧
    A.headingEntryAtm hE ≠
      some (Spec.angle (Spec.horizontal R (U - V3.cross (Spec.spin A.P.OMEGA) R)) (Spec.eastAt R)) := by
  obtain ⟨A, hE, R, U, h1, h2, h3, h4, h5, h6, -⟩ := C52_heading_wrong_reachable
  obtain ⟨H, g, e1, -, e3, e4, -⟩ := C52_heading_relation A hE R U h2 h3 h4 (by
    intro h0
    rw [h0] at h6
    exact h6 (by simp [V3.dot]))
  exact ⟨A, hE, R, U, h1, h2, h3, ⟨H, e1, e3, e4⟩, C52_heading_wrong A hE R U h2 h3 h4 h5 h6⟩

/-- Non-vacuity of `C51_longitude_partial` and `C52_heading_partial`: entry exactly at periapsis of a polar arrival. -/
example : ∃ A R U, Approach.init "EARTH" ⟨0, 10 * 1, 0⟩ 6371e3 0 true (some 0) = .ok A ∧
    A.rVecEntry 0 = some R ∧ A.vVecEntry 0 = some U ∧ 0 < R.x ∧ U - V3.cross (Spec.spin A.P.OMEGA) R ≠ 0 ∧ V3.dot R U = 0 := by
  obtain ⟨A, V, e, b, h, d, u, w, hA, H, hV, hd, hu, hw, hRP, hOM, hrp⟩ :=
    earth_polar (s := 1) (rp := 6371e3) (hE := 0) (Or.inl rfl) (by norm_num)
  have hn : w.x ≠ 0 ∨ w.y ≠ 0 := by right; rw [hw]; norm_num
  have hr : A.rEI 0 = A.rp := by unfold Approach.rEI; rw [hRP, hrp, add_zero]
  obtain ⟨t, ht, ht1, ht2, hc, hre, hR, hU⟩ := Core.entry H hn (hE := 0) hr.ge
  have hrpp := H.rp; have hg := H.gm; have he := H.e1; have hh := H.hpos
  have hcos : cos t = 1 := by
    rw [hr, H.hsq] at hre
    rw [div_eq_iff hc.ne', div_eq_iff hg.ne'] at hre
    have : A.P.GM * A.rp * e * (cos t - 1) = 0 := by linarith
    have hne : A.P.GM * A.rp * e ≠ 0 := by positivity
    have := (mul_eq_zero.mp this).resolve_left hne
    linarith
  have hsin : sin t = 0 := by
    have := sin_sq_add_cos_sq t
    rw [hcos] at this
    have : sin t ^ 2 = 0 := by linarith
    exact pow_eq_zero_iff two_ne_zero |>.mp this
  have hcb : 0 < cos b := by rw [H.cb]; positivity
  have hq : V3.cross w u = ⟨sin b, 0, cos b⟩ := by
    rw [hw, hu]; ext <;> simp [V3.cross]
  refine ⟨A, _, _, hA, hR, hU, ?_, ?_, ?_⟩
  · unfold cPos
    rw [hre, hr, hcos, hsin, hu]
    simp only [V3.add_x, V3.smul_x]
    have := mul_pos hrpp hcb
    linarith
  · intro hc
    have := congrArg V3.z hc
    unfold cVel at this
    rw [hq, hu, hcos, hsin] at this
    simp only [V3.sub_z, V3.cross, Spec.spin, V3.add_z, V3.smul_z, V3.zero_z] at this
    have h2 : 0 < A.P.GM / h * ((e + 1) * cos b) := by positivity
    linarith
  · obtain ⟨-, -, -, -, -, l6, -⟩ := Core.laws H hc
    rw [l6, hsin]; ring

end AMAT.Props
