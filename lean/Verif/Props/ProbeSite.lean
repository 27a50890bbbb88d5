import Verif.Props.ProbeEntryPoint
import Verif.Props.EntryAtmosphere

/-
Property C137: latitude, longitude, atmosphere-relative velocity and heading in the entry record of a released probe.  What the
record says about the position and velocity it holds; whether these are the right ones is C119.
-/

noncomputable section

open Real

namespace AMAT.Props

/-- The entry record, field by field. -/
theorem probeEntry_fields {O : Orbiter} {self probe : Elements} {pe : Orbiter.ProbeEntry}
    (h : O.probeEntry self probe = some pe) : pe.R.x ≠ 0 ∧ pe.lat = arcsin (Spec.radial pe.R).z ∧
      pe.lon = arctan ((Spec.radial pe.R).y / (Spec.radial pe.R).x) ∧ pe.Uatm ≠ 0 ∧
      pe.Uatm = ⟨pe.U.x - V3.norm pe.R * O.P.OMEGA * cos pe.lat * (-sin pe.lon),
        pe.U.y - V3.norm pe.R * O.P.OMEGA * cos pe.lat * cos pe.lon, pe.U.z⟩ ∧
      npArccos (V3.dot ((1 / V3.norm pe.Uatm) • pe.Uatm - V3.dot ((1 / V3.norm pe.Uatm) • pe.Uatm) (Spec.radial pe.R) •
        Spec.radial pe.R) ⟨-sin pe.lon, cos pe.lon, 0.0⟩) = some pe.heading := by
  unfold Orbiter.probeEntry at h
  simp only [bind, pure, Option.bind_eq_some_iff] at h
  obtain ⟨t, ht, R, hR, ru, hru, U, hU, vu, -, x, -, g, -, q, hq, au, hau, ga, -, hd, hhd, he⟩ := h
  have hR0 : R ≠ 0 := by
    rintro rfl
    rw [npUnit_zero] at hru
    exact absurd hru (by simp)
  rw [npUnit_some hR0] at hru
  obtain rfl := Option.some.inj hru
  unfold npDiv at hq
  split at hq
  · exact absurd hq (by simp)
  rename_i hx
  obtain rfl := Option.some.inj hq
  obtain rfl := Option.some.inj he
  have hU0 : (⟨U.x - V3.norm R * O.P.OMEGA * cos (arcsin (Spec.radial R).z) * (-sin (arctan ((Spec.radial R).y / (Spec.radial R).x))),
      U.y - V3.norm R * O.P.OMEGA * cos (arcsin (Spec.radial R).z) * cos (arctan ((Spec.radial R).y / (Spec.radial R).x)), U.z⟩ : V3) ≠ 0 := by
    intro h0
    change npUnit (⟨U.x - V3.norm R * O.P.OMEGA * cos (arcsin (Spec.radial R).z) * (-sin (arctan ((Spec.radial R).y / (Spec.radial R).x))),
      U.y - V3.norm R * O.P.OMEGA * cos (arcsin (Spec.radial R).z) * cos (arctan ((Spec.radial R).y / (Spec.radial R).x)), U.z⟩ : V3) = some au at hau
    rw [h0, npUnit_zero] at hau
    exact absurd hau (by simp)
  have hau' := (npUnit_some hU0).symm.trans hau
  obtain rfl := Option.some.inj hau'
  refine ⟨?_, rfl, rfl, hU0, rfl, hhd⟩
  intro h0
  apply hx
  change 1 / V3.norm R * R.x = 0
  have h0' : R.x = 0 := h0
  rw [h0', mul_zero]

/-- East direction at a position, from the code's longitude: reversed where `x < 0`. -/
theorem east_sign {R : V3} (hx : R.x ≠ 0) :
    (⟨-sin (arctan ((Spec.radial R).y / (Spec.radial R).x)), cos (arctan ((Spec.radial R).y / (Spec.radial R).x)), 0⟩ : V3) =
      (|R.x| / R.x) • Spec.eastAt R := by
  rcases lt_or_gt_of_ne hx with h | h
  · have hn : V3.norm ((-1 : ℝ) • R) = V3.norm R := by rw [V3.norm_smul]; norm_num
    have h1 := eastAt_eq (R := (-1 : ℝ) • R) (by simp only [V3.smul_x]; linarith)
    have h2 : (Spec.radial ((-1 : ℝ) • R)).y / (Spec.radial ((-1 : ℝ) • R)).x = (Spec.radial R).y / (Spec.radial R).x := by
      simp only [Spec.radial, hn, V3.smul_x, V3.smul_y]
      rw [show 1 / V3.norm R * (-1 * R.y) = -(1 / V3.norm R * R.y) by ring,
        show 1 / V3.norm R * (-1 * R.x) = -(1 / V3.norm R * R.x) by ring, neg_div_neg_eq]
    rw [h2] at h1
    rw [h1, abs_of_neg h, neg_div, div_self hx]
    have h3 : V3.cross ⟨0, 0, 1⟩ ((-1 : ℝ) • R) = (-1 : ℝ) • V3.cross ⟨0, 0, 1⟩ R := by
      ext <;> simp only [V3.cross, V3.smul_x, V3.smul_y, V3.smul_z] <;> ring
    unfold Spec.eastAt
    rw [h3, V3.norm_smul]
    ext <;> simp only [V3.smul_x, V3.smul_y, V3.smul_z] <;> norm_num
  · rw [abs_of_pos h, div_self hx, V3.one_smul]; exact eastAt_eq h

theorem eastAt_norm {R : V3} (hx : R.x ≠ 0) : V3.norm (Spec.eastAt R) = 1 := by
  have hcp : V3.cross ⟨0, 0, 1⟩ R ≠ 0 := by
    intro hc
    have := congrArg V3.y hc
    simp only [V3.cross, V3.zero_y] at this
    apply hx; linarith
  exact V3.norm_of_dot_one (V3.unit_dot_self hcp)

theorem eastAt_radial (R : V3) : V3.dot (Spec.radial R) (Spec.eastAt R) = 0 := by
  simp only [Spec.radial, Spec.eastAt, V3.dot, V3.cross, V3.smul_x, V3.smul_y, V3.smul_z]; ring

/-- Relative velocity and heading of the record, up to the lost quadrant. -/
theorem probeEntry_site {O : Orbiter} {self probe : Elements} {pe : Orbiter.ProbeEntry}
    (h : O.probeEntry self probe = some pe) : pe.R.x ≠ 0 ∧
      pe.Uatm = pe.U - (|pe.R.x| / pe.R.x) • V3.cross (Spec.spin O.P.OMEGA) pe.R ∧ pe.Uatm ≠ 0 ∧
      pe.heading = arccos ((|pe.R.x| / pe.R.x) * (V3.dot pe.Uatm (Spec.eastAt pe.R) / V3.norm pe.Uatm)) := by
  obtain ⟨hx, hlat, hlon, hU0, hUa, hh⟩ := probeEntry_fields h
  have h0 : pe.R ≠ 0 := by intro h0; rw [h0] at hx; exact hx rfl
  have hn := V3.norm_pos h0
  have hux : (Spec.radial pe.R).x ≠ 0 := mul_ne_zero (one_div_pos.mpr hn).ne' hx
  obtain ⟨a1, a2, a3⟩ := lonlat_up (n := Spec.radial pe.R) (V3.unit_dot_self h0) hux
  rw [← hlat, ← hlon] at a1 a2
  have b1 : V3.norm pe.R * |(Spec.radial pe.R).x| = |pe.R.x| := by
    simp only [Spec.radial, V3.smul_x]
    rw [abs_mul, abs_of_pos (one_div_pos.mpr hn)]; field_simp
  have b2 : (Spec.radial pe.R).y / (Spec.radial pe.R).x = pe.R.y / pe.R.x := by
    simp only [Spec.radial, V3.smul_x, V3.smul_y]; field_simp
  refine ⟨hx, ?_, hU0, ?_⟩
  · rw [hUa]
    ext <;> simp only [V3.sub_x, V3.sub_y, V3.sub_z, V3.smul_x, V3.smul_y, V3.smul_z, V3.cross, Spec.spin]
    · have : V3.norm pe.R * O.P.OMEGA * cos pe.lat * (-sin pe.lon) =
        -(O.P.OMEGA * (V3.norm pe.R * (cos pe.lat * sin pe.lon))) := by ring
      rw [this, a2, b2, ← mul_assoc (V3.norm pe.R), b1]
      field_simp
      ring
    · have : V3.norm pe.R * O.P.OMEGA * cos pe.lat * cos pe.lon =
        O.P.OMEGA * (V3.norm pe.R * (cos pe.lat * cos pe.lon)) := by ring
      rw [this, a1, b1]
      field_simp
      ring
    · ring
  · unfold npArccos at hh
    split at hh
    · rw [← Option.some.inj hh]
      congr 1
      rw [Lits.l00, hlon, east_sign hx]
      have e := eastAt_radial pe.R
      have h1 : V3.dot ((1 / V3.norm pe.Uatm) • pe.Uatm - V3.dot ((1 / V3.norm pe.Uatm) • pe.Uatm) (Spec.radial pe.R) •
          Spec.radial pe.R) ((|pe.R.x| / pe.R.x) • Spec.eastAt pe.R) = (|pe.R.x| / pe.R.x) * ((1 / V3.norm pe.Uatm) *
          V3.dot pe.Uatm (Spec.eastAt pe.R) - V3.dot ((1 / V3.norm pe.Uatm) • pe.Uatm) (Spec.radial pe.R) *
          V3.dot (Spec.radial pe.R) (Spec.eastAt pe.R)) := by
        simp only [V3.dot, V3.sub_x, V3.sub_y, V3.sub_z, V3.smul_x, V3.smul_y, V3.smul_z]; ring
      rw [h1, e]
      ring
    · exact absurd hh (by simp)

/-! ### C137 -/

/-- C137 (partial: entry positions with `x > 0`, see `C137_lost_quadrant`).  The recorded latitude and longitude are those of the
recorded position, the recorded relative velocity is the recorded inertial velocity minus `Ω × R`, and the recorded heading is
the angle between the relative velocity and east. -/
theorem C137_site_partial (O : Orbiter) (self probe : Elements) (pe : Orbiter.ProbeEntry)
    (h : O.probeEntry self probe = some pe) (hx : 0 < pe.R.x) :
    pe.R = V3.norm pe.R • Spec.up pe.lon pe.lat ∧ pe.Uatm = pe.U - V3.cross (Spec.spin O.P.OMEGA) pe.R ∧
    pe.heading = Spec.angle pe.Uatm (Spec.eastAt pe.R) := by
  obtain ⟨-, hlat, hlon, -, -, -⟩ := probeEntry_fields h
  obtain ⟨-, hUa, -, hh⟩ := probeEntry_site h
  rw [abs_of_pos hx, div_self hx.ne'] at hUa hh
  rw [V3.one_smul] at hUa
  have h0 : pe.R ≠ 0 := by intro h0; rw [h0] at hx; exact lt_irrefl _ hx
  have hn := V3.norm_pos h0
  have hux : 0 < (Spec.radial pe.R).x := mul_pos (one_div_pos.mpr hn) hx
  obtain ⟨a1, a2, a3⟩ := lonlat_up (n := Spec.radial pe.R) (V3.unit_dot_self h0) hux.ne'
  refine ⟨?_, hUa, ?_⟩
  · rw [abs_of_pos hux] at a1 a2
    rw [mul_div_cancel₀ _ hux.ne'] at a2
    unfold Spec.up
    rw [hlat, hlon, a1, a2, a3]
    ext <;> simp only [Spec.radial, V3.smul_x, V3.smul_y, V3.smul_z] <;> field_simp
  · rw [hh, one_mul, Spec.angle, eastAt_norm hx.ne', mul_one]

/-- Finding behind C137: at entry positions with `x < 0` the recorded longitude is off by `π`, the recorded relative velocity is
the inertial velocity PLUS `Ω × R`, an error of twice the rotation speed at that point, and the recorded heading is measured
from WEST. -/
theorem C137_lost_quadrant (O : Orbiter) (self probe : Elements) (pe : Orbiter.ProbeEntry)
    (h : O.probeEntry self probe = some pe) (hx : pe.R.x < 0) :
    pe.R = V3.norm pe.R • Spec.up (pe.lon + π) pe.lat ∧ pe.Uatm = pe.U + V3.cross (Spec.spin O.P.OMEGA) pe.R ∧
    V3.norm (pe.Uatm - (pe.U - V3.cross (Spec.spin O.P.OMEGA) pe.R)) = 2 * |O.P.OMEGA| * sqrt (pe.R.x ^ 2 + pe.R.y ^ 2) ∧
    pe.heading = π - Spec.angle pe.Uatm (Spec.eastAt pe.R) := by
  obtain ⟨-, hlat, hlon, -, -, -⟩ := probeEntry_fields h
  obtain ⟨-, hUa, -, hh⟩ := probeEntry_site h
  rw [abs_of_neg hx, neg_div, div_self hx.ne] at hUa hh
  have hUa' : pe.Uatm = pe.U + V3.cross (Spec.spin O.P.OMEGA) pe.R := by
    rw [hUa]
    ext <;> simp only [V3.add_x, V3.add_y, V3.add_z, V3.sub_x, V3.sub_y, V3.sub_z, V3.smul_x, V3.smul_y, V3.smul_z] <;> ring
  have h0 : pe.R ≠ 0 := by intro h0; rw [h0] at hx; exact lt_irrefl _ hx
  have hn := V3.norm_pos h0
  have hux : (Spec.radial pe.R).x < 0 := mul_neg_of_pos_of_neg (one_div_pos.mpr hn) hx
  obtain ⟨a1, a2, a3⟩ := lonlat_up (n := Spec.radial pe.R) (V3.unit_dot_self h0) hux.ne
  rw [abs_of_neg hux] at a1 a2
  have a2' : cos (arcsin (Spec.radial pe.R).z) * sin (arctan ((Spec.radial pe.R).y / (Spec.radial pe.R).x)) =
      -(Spec.radial pe.R).y := by
    rw [a2]; have := hux.ne; field_simp
  refine ⟨?_, hUa', ?_, ?_⟩
  · unfold Spec.up
    rw [hlat, hlon, cos_add_pi, sin_add_pi, mul_neg, mul_neg, a1, a2', a3]
    ext <;> simp only [Spec.radial, V3.smul_x, V3.smul_y, V3.smul_z] <;> field_simp
  · rw [hUa']
    apply V3.norm_eq_of_sq (by positivity)
    rw [mul_pow, mul_pow, sq_abs, sq_sqrt (by positivity)]
    simp only [V3.dot, V3.add_x, V3.add_y, V3.add_z, V3.sub_x, V3.sub_y, V3.sub_z, V3.cross, Spec.spin]
    ring
  · rw [hh, Spec.angle, eastAt_norm hx.ne, mul_one, neg_one_mul, arccos_neg]

/-- C137, heading: the angle between the HORIZONTAL relative velocity and east is what the field is meant to hold; it does so
exactly when the probe moves horizontally or its relative velocity has no eastward part. -/
theorem C137_heading_iff (O : Orbiter) (self probe : Elements) (pe : Orbiter.ProbeEntry)
    (h : O.probeEntry self probe = some pe) (hx : 0 < pe.R.x) :
    pe.heading = Spec.angle (Spec.horizontal pe.R pe.Uatm) (Spec.eastAt pe.R) ↔
      V3.dot pe.R pe.U = 0 ∨ V3.dot pe.Uatm (Spec.eastAt pe.R) = 0 := by
  obtain ⟨-, hUa, hh⟩ := C137_site_partial O self probe pe h hx
  obtain ⟨-, -, hU0, -⟩ := probeEntry_site h
  have h0 : pe.R ≠ 0 := by intro h0; rw [h0] at hx; exact lt_irrefl _ hx
  have hn := V3.norm_pos h0
  have hWn := V3.norm_pos hU0
  have hd : V3.dot pe.R pe.Uatm = V3.dot pe.R pe.U := by
    rw [hUa]; simp only [V3.dot, V3.cross, Spec.spin, V3.sub_x, V3.sub_y, V3.sub_z]; ring
  rw [← hd, hh]
  have hE := eastAt_norm hx.ne'
  have hnn : V3.dot (Spec.radial pe.R) (Spec.radial pe.R) = 1 := V3.unit_dot_self h0
  have hc : V3.dot (Spec.horizontal pe.R pe.Uatm) (Spec.eastAt pe.R) = V3.dot pe.Uatm (Spec.eastAt pe.R) := by
    have : V3.dot (Spec.horizontal pe.R pe.Uatm) (Spec.eastAt pe.R) = V3.dot pe.Uatm (Spec.eastAt pe.R) -
        V3.dot pe.Uatm (Spec.radial pe.R) * V3.dot (Spec.radial pe.R) (Spec.eastAt pe.R) := by
      unfold Spec.horizontal
      simp only [V3.dot, V3.sub_x, V3.sub_y, V3.sub_z, V3.smul_x, V3.smul_y, V3.smul_z]; ring
    rw [this, eastAt_radial]; ring
  have hsq : V3.norm (Spec.horizontal pe.R pe.Uatm) ^ 2 = V3.norm pe.Uatm ^ 2 - V3.dot pe.Uatm (Spec.radial pe.R) ^ 2 := by
    rw [V3.norm_sq, V3.norm_sq]
    have : V3.dot (Spec.horizontal pe.R pe.Uatm) (Spec.horizontal pe.R pe.Uatm) = V3.dot pe.Uatm pe.Uatm -
        2 * V3.dot pe.Uatm (Spec.radial pe.R) ^ 2 +
        V3.dot pe.Uatm (Spec.radial pe.R) ^ 2 * V3.dot (Spec.radial pe.R) (Spec.radial pe.R) := by
      unfold Spec.horizontal
      simp only [V3.dot, V3.sub_x, V3.sub_y, V3.sub_z, V3.smul_x, V3.smul_y, V3.smul_z]; ring
    rw [this, hnn]; ring
  have hrad : V3.dot pe.Uatm (Spec.radial pe.R) = V3.dot pe.R pe.Uatm / V3.norm pe.R := by
    unfold Spec.radial; rw [V3.dot_smul_right, V3.dot_comm]; ring
  have habs1 := V3.abs_dot_le pe.Uatm (Spec.eastAt pe.R)
  have habs2 := V3.abs_dot_le (Spec.horizontal pe.R pe.Uatm) (Spec.eastAt pe.R)
  rw [hE, mul_one, abs_le] at habs1
  rw [hE, mul_one, abs_le, hc] at habs2
  unfold Spec.angle
  rw [hE, mul_one, mul_one, hc]
  constructor
  · intro he
    by_contra hn2
    push Not at hn2
    obtain ⟨n1, n2⟩ := hn2
    have hp : 0 < V3.norm (Spec.horizontal pe.R pe.Uatm) := by
      rcases (V3.norm_nonneg (Spec.horizontal pe.R pe.Uatm)).lt_or_eq with h1 | h1
      · exact h1
      · rw [← h1] at habs2
        exact absurd (le_antisymm habs2.2 (by linarith [habs2.1])) n2
    have := arccos_injOn ⟨by rw [le_div_iff₀ hWn]; linarith [habs1.1], by rw [div_le_iff₀ hWn]; linarith [habs1.2]⟩
      ⟨by rw [le_div_iff₀ hp]; linarith [habs2.1], by rw [div_le_iff₀ hp]; linarith [habs2.2]⟩ he
    rw [div_eq_div_iff hWn.ne' hp.ne'] at this
    have h2 := mul_left_cancel₀ n2 this
    rw [h2, hrad] at hsq
    have h3 : (V3.dot pe.R pe.Uatm / V3.norm pe.R) ^ 2 = 0 := by linarith
    have h4 := (div_eq_zero_iff.mp (pow_eq_zero_iff two_ne_zero |>.mp h3)).resolve_right hn.ne'
    exact n1 h4
  · rintro (h1 | h1)
    · rw [hrad, h1, zero_div] at hsq
      have : V3.norm (Spec.horizontal pe.R pe.Uatm) = V3.norm pe.Uatm := by
        refine (sq_eq_sq₀ (V3.norm_nonneg _) hWn.le).mp ?_
        rw [hsq]; ring
      rw [this]
    · rw [h1, zero_div, zero_div]

/-- Case for `C137_site_partial` and `C137_heading_iff`: the probe of the polar Mars orbit with periapsis at 50 km enters with `x > 0`. -/
example : ∃ (O : Orbiter) (self probe : Elements) (pe : Orbiter.ProbeEntry), O.orbit = some self ∧
    O.probeElements 0 0 = some probe ∧ O.probeEntry self probe = some pe ∧ pe.R = V3.norm pe.R • Spec.up pe.lon pe.lat := by
  obtain ⟨O, self, probe, pe, h1, h2, -, -, h3, h4⟩ := mars_low_release
  exact ⟨O, self, probe, pe, h1, h2, h3, (C137_site_partial O self probe pe h3 h4).1⟩

/-- Case for `C137_lost_quadrant`: the probe released by a braking burn a quarter turn after periapsis enters with `x < 0`. -/
example : ∃ (O : Orbiter) (b : ℝ) (self probe : Elements) (pe : Orbiter.ProbeEntry), O.orbit = some self ∧
    O.probeElements (π / 2) b = some probe ∧ O.probeEntry self probe = some pe ∧
    pe.Uatm ≠ pe.U - V3.cross (Spec.spin O.P.OMEGA) pe.R := by
  obtain ⟨O, R1, U1, U2, self, probe, pe, hP, -, h1, h2, -, -, h3, h4⟩ := mars_quarter_release
  have hOM : O.P.OMEGA = 7.088253e-5 := by simp [Planet.init] at hP; rw [← hP]; rfl
  refine ⟨O, _, self, probe, pe, h1, h2, h3, ?_⟩
  intro hc
  obtain ⟨-, -, e, -⟩ := C137_lost_quadrant O self probe pe h3 h4
  rw [hc] at e
  have z : V3.norm (pe.U - V3.cross (Spec.spin O.P.OMEGA) pe.R - (pe.U - V3.cross (Spec.spin O.P.OMEGA) pe.R)) = 0 := by
    apply V3.norm_eq_of_sq le_rfl
    simp only [V3.dot, V3.sub_x, V3.sub_y, V3.sub_z]; ring
  rw [z, hOM] at e
  have : 0 < sqrt (pe.R.x ^ 2 + pe.R.y ^ 2) := sqrt_pos.mpr (by nlinarith only [h4, sq_nonneg pe.R.y, mul_pos_of_neg_of_neg h4 h4])
  rw [abs_of_pos (by norm_num)] at e
  norm_num at e
  linarith only [e, this]

end AMAT.Props
