import Verif.Model.ExitState
import Verif.Props.OrbitProps

/-
C126: the body-inertial exit state reported by `Orbiter`.  Radius, longitude, latitude, speed and flight-path angle are those
of the inertial motion; the heading is the planet-relative one, which is wrong unless the vehicle leaves due east or west,
over a pole, or from a planet that does not rotate.
-/

noncomputable section

namespace AMAT.Props

open Real AMAT.Spec

/-- Components of a vector along up, east and north. -/
theorem frame_ext (th ph : ℝ) (a b c a' b' c' : ℝ) :
    a • up th ph + (b • east th + c • north th ph) = a' • up th ph + (b' • east th + c' • north th ph) ↔
      a = a' ∧ b = b' ∧ c = c' := by
  constructor
  · intro h
    have hx := congrArg V3.x h
    have hy := congrArg V3.y h
    have hz := congrArg V3.z h
    simp only [V3.add_x, V3.add_y, V3.add_z, V3.smul_x, V3.smul_y, V3.smul_z, up, east, north] at hx hy hz
    have h1 := sin_sq_add_cos_sq th
    have h2 := sin_sq_add_cos_sq ph
    refine ⟨?_, ?_, ?_⟩
    · linear_combination cos ph * cos th * hx + cos ph * sin th * hy + sin ph * hz
        + ((a' - a) * cos ph ^ 2 + (c - c') * sin ph * cos ph) * h1 + (a' - a) * h2
    · linear_combination -sin th * hx + cos th * hy + (b' - b) * h1
    · linear_combination -(sin ph * cos th) * hx - sin ph * sin th * hy + cos ph * hz
        + ((a - a') * sin ph * cos ph - (c - c') * sin ph ^ 2) * h1 - (c - c') * h2
  · rintro ⟨rfl, rfl, rfl⟩; rfl

theorem vel_frame (th ph v psi g : ℝ) : vel th ph v psi g =
    (v * sin g) • up th ph + ((v * cos g * cos psi) • east th + (v * cos g * sin psi) • north th ph) := by
  ext <;> simp only [vel, along, horiz, V3.add_x, V3.add_y, V3.add_z, V3.smul_x, V3.smul_y, V3.smul_z] <;> ring

theorem vIe_frame (P : Planet) (s : Terminal) : s.vIe P =
    (s.v * sin s.g) • up s.theta s.phi + ((s.v * cos s.g * cos s.psi + P.OMEGA * s.r * cos s.phi) • east s.theta
      + (s.v * cos s.g * sin s.psi) • north s.theta s.phi) := by
  rw [vIe_eq, vel_frame]
  ext <;> simp only [V3.cross, spin, pos, up, east, north, V3.add_x, V3.add_y, V3.add_z, V3.smul_x, V3.smul_y, V3.smul_z]
    <;> ring

theorem dot_frame (th ph a b c a' b' c' : ℝ) :
    V3.dot (a • up th ph + (b • east th + c • north th ph)) (a' • up th ph + (b' • east th + c' • north th ph)) =
      a * a' + b * b' + c * c' := by
  simp only [V3.dot, V3.add_x, V3.add_y, V3.add_z, V3.smul_x, V3.smul_y, V3.smul_z, up, east, north]
  have h1 := sin_sq_add_cos_sq th
  have h2 := sin_sq_add_cos_sq ph
  linear_combination (a * a' * cos ph ^ 2 + b * b' + c * c' * sin ph ^ 2 - (a * c' + a' * c) * sin ph * cos ph) * h1
    + (a * a' + c * c') * h2

/-- Speed and flight-path angle in components. -/
theorem exit_components (P : Planet) (s : Terminal) (hr : 0 < s.r) (hU : s.vIe P ≠ 0) :
    ∃ g, s.fpaIe P = some g ∧ -(π / 2) ≤ g ∧ g ≤ π / 2 ∧ s.vIeMag P * sin g = s.v * sin s.g ∧ 0 ≤ s.vIeMag P * cos g ∧
      (s.vIeMag P * cos g) ^ 2 = (s.v * cos s.g * cos s.psi + P.OMEGA * s.r * cos s.phi) ^ 2
        + (s.v * cos s.g * sin s.psi) ^ 2 := by
  obtain ⟨g, h1, h2, h3, h4, -⟩ := fpaIe_spec P s hr hU
  have hR : s.rVec = s.r • up s.theta s.phi + ((0:ℝ) • east s.theta + (0:ℝ) • north s.theta s.phi) := by
    rw [rVec_eq]
    ext <;> simp [pos, up, east, north]
  have hd : V3.dot s.rVec (s.vIe P) = s.r * (s.v * sin s.g) := by
    rw [hR, vIe_frame, dot_frame]; ring
  have hn : V3.norm s.rVec = s.r := by rw [rVec_eq]; exact norm_pos_r hr
  rw [hd, hn, ← vIeMag_eq, mul_assoc] at h4
  have h5 : s.vIeMag P * sin g = s.v * sin s.g := mul_left_cancel₀ hr.ne' h4
  have hm : (s.vIeMag P) ^ 2 = (s.v * sin s.g) ^ 2 + (s.v * cos s.g * cos s.psi + P.OMEGA * s.r * cos s.phi) ^ 2
      + (s.v * cos s.g * sin s.psi) ^ 2 := by
    rw [vIeMag_eq, V3.norm_sq, vIe_frame, dot_frame]; ring
  refine ⟨g, h1, h2, h3, h5, mul_nonneg ?_ (cos_nonneg_of_neg_pi_div_two_le_of_le h2 h3), ?_⟩
  · rw [vIeMag_eq]; exact V3.norm_nonneg _
  · have := sin_sq_add_cos_sq g
    linear_combination hm + (s.vIeMag P) ^ 2 * this - (s.vIeMag P * sin g + s.v * sin s.g) * h5

/-- **C126**.  The reported body-inertial exit state exists whenever the vehicle moves, at the true position, with the true
inertial speed, and its flight-path angle is that of the inertial velocity: the vertical and the horizontal speeds rebuilt from
it are those of the inertial velocity `V`.  Missing: the heading, see `C126_heading_iff`. -/
theorem C126_exit_state_partial (P : Planet) (s : Terminal) (hr : 0 < s.r)
    (hU : vel s.theta s.phi s.v s.psi s.g + V3.cross (spin P.OMEGA) (pos s.r s.theta s.phi) ≠ 0) :
    ∃ b, s.exitStateBi P = some b ∧ pos b.r b.theta b.phi = pos s.r s.theta s.phi ∧
      let X := pos s.r s.theta s.phi
      let V := vel s.theta s.phi s.v s.psi s.g + V3.cross (spin P.OMEGA) X
      let W := vel b.theta b.phi b.v b.psi b.g
      V3.norm W = V3.norm V ∧ V3.dot X W = V3.dot X V ∧ V3.norm (V3.cross X W) = V3.norm (V3.cross X V) := by
  rw [← vIe_eq] at hU
  obtain ⟨g, h1, -, -, h4, h5, h6⟩ := exit_components P s hr hU
  refine ⟨⟨s.r, s.vIeMag P, g, s.theta, s.phi, s.psi⟩, by simp [Terminal.exitStateBi, h1], rfl, ?_⟩
  simp only
  rw [← vIe_eq]
  set X := pos s.r s.theta s.phi with hX
  have hXf : X = s.r • up s.theta s.phi + ((0:ℝ) • east s.theta + (0:ℝ) • north s.theta s.phi) := by
    ext <;> simp [hX, pos, up, east, north]
  set W := vel s.theta s.phi (s.vIeMag P) s.psi g with hW
  have hnn : V3.dot W W = V3.dot (s.vIe P) (s.vIe P) := by
    rw [hW, vel_frame, vIe_frame, dot_frame, dot_frame]
    have := sin_sq_add_cos_sq s.psi
    linear_combination (s.vIeMag P * sin g + s.v * sin s.g) * h4 + h6 + (s.vIeMag P * cos g) ^ 2 * this
  have hdd : V3.dot X W = V3.dot X (s.vIe P) := by
    rw [hXf, hW, vel_frame, vIe_frame, dot_frame, dot_frame]
    linear_combination s.r * h4
  refine ⟨?_, hdd, ?_⟩
  · unfold V3.norm; rw [hnn]
  · unfold V3.norm; rw [V3.dot_cross_self, V3.dot_cross_self, hnn, hdd]

/-- **C126**, the heading (finding).  The reported state describes the inertial velocity exactly if the place does not move
and the vehicle does not fly backwards, or the vehicle flies due east or west and the rotation does not reverse its course. -/
theorem C126_heading_iff (P : Planet) (s : Terminal) (hr : 0 < s.r) (b : Terminal) (hb : s.exitStateBi P = some b)
    (hU : vel s.theta s.phi s.v s.psi s.g + V3.cross (spin P.OMEGA) (pos s.r s.theta s.phi) ≠ 0) :
    vel b.theta b.phi b.v b.psi b.g =
        vel s.theta s.phi s.v s.psi s.g + V3.cross (spin P.OMEGA) (pos s.r s.theta s.phi) ↔
      (P.OMEGA * cos s.phi = 0 ∧ 0 ≤ s.v * cos s.g) ∨
      (sin s.psi = 0 ∧ 0 ≤ s.v * cos s.g + P.OMEGA * s.r * cos s.phi * cos s.psi) := by
  rw [← vIe_eq] at hU ⊢
  obtain ⟨g, h1, -, -, h4, h5, h6⟩ := exit_components P s hr hU
  obtain rfl : (⟨s.r, s.vIeMag P, g, s.theta, s.phi, s.psi⟩ : Terminal) = b := by
    simpa [Terminal.exitStateBi, h1] using hb
  simp only
  rw [vel_frame, vIe_frame, frame_ext]
  generalize s.vIeMag P * cos g = H at *
  have hw : P.OMEGA * s.r * cos s.phi = 0 ↔ P.OMEGA * cos s.phi = 0 := by
    constructor
    · intro h
      have : s.r * (P.OMEGA * cos s.phi) = 0 := by linear_combination h
      exact (mul_eq_zero.mp this).resolve_left hr.ne'
    · intro h; linear_combination s.r * h
  rw [← hw]
  generalize P.OMEGA * s.r * cos s.phi = w at *
  generalize s.v * cos s.g = c at *
  have hp := sin_sq_add_cos_sq s.psi
  constructor
  · rintro ⟨-, e2, e3⟩
    by_cases hs : sin s.psi = 0
    · right
      refine ⟨hs, ?_⟩
      have : c + w * cos s.psi = H := by
        have hc : cos s.psi ^ 2 = 1 := by rw [hs] at hp; linarith
        linear_combination (H - c) * hc - cos s.psi * e2
      rw [this]; exact h5
    · left
      have hH : H = c := mul_right_cancel₀ hs e3
      rw [hH] at e2 h5
      exact ⟨by linarith, h5⟩
  · rintro (⟨hw0, hc⟩ | ⟨hs, hc⟩)
    · have hH : H = c := by
        have : H ^ 2 = c ^ 2 := by rw [h6, hw0]; linear_combination c ^ 2 * hp
        exact (pow_left_inj₀ h5 hc (by norm_num)).mp this
      rw [hH, hw0]
      exact ⟨h4, by ring, rfl⟩
    · have hc1 : cos s.psi ^ 2 = 1 := by rw [hs] at hp; linarith
      have hH : H = c + w * cos s.psi := by
        have : H ^ 2 = (c + w * cos s.psi) ^ 2 := by
          rw [h6, hs]; linear_combination (c ^ 2 - w ^ 2) * hc1
        exact (pow_left_inj₀ h5 hc (by norm_num)).mp this
      refine ⟨h4, ?_, by rw [hs]; ring⟩
      rw [hH]; linear_combination w * hc1

/-- **C126**, the size of the error.  A vehicle leaving northwards over the equator is reported with a velocity that is wrong
by at least the speed of the rotating ground below it. -/
theorem C126_northward_error (P : Planet) (r v : ℝ) (hr : 0 < r) (hv : 0 < v) :
    ∃ b, (⟨r, v, 0, 0, 0, π / 2⟩ : Terminal).exitStateBi P = some b ∧
      |P.OMEGA| * r ≤ V3.norm (vel b.theta b.phi b.v b.psi b.g
        - (vel 0 0 v (π / 2) 0 + V3.cross (spin P.OMEGA) (pos r 0 0))) := by
  set s : Terminal := ⟨r, v, 0, 0, 0, π / 2⟩ with hs
  have hU : s.vIe P ≠ 0 := by
    intro h
    have := congrArg V3.z h
    simp [Terminal.vIe, Terminal.vPr, hs] at this
    exact hv.ne' this
  obtain ⟨g, h1, -, -, h4, h5, h6⟩ := exit_components P s hr hU
  refine ⟨⟨r, s.vIeMag P, g, 0, 0, π / 2⟩, ?_, ?_⟩
  · simp only [Terminal.exitStateBi, h1]; rfl
  simp only
  have hy : (vel 0 0 (s.vIeMag P) (π / 2) g - (vel 0 0 v (π / 2) 0 + V3.cross (spin P.OMEGA) (pos r 0 0))).y
      = -(P.OMEGA * r) := by
    simp [vel, along, horiz, up, east, north, V3.cross, spin, pos]
  generalize vel 0 0 (s.vIeMag P) (π / 2) g - (vel 0 0 v (π / 2) 0 + V3.cross (spin P.OMEGA) (pos r 0 0)) = D at hy
  rw [← abs_of_pos hr, ← abs_mul]
  apply Real.le_sqrt_of_sq_le
  rw [sq_abs]
  have : (P.OMEGA * r) ^ 2 = D.y ^ 2 := by rw [hy]; ring
  rw [this]
  unfold V3.dot
  nlinarith [sq_nonneg D.x, sq_nonneg D.z]

/-- At Saturn, 1000 km above the surface, the error exceeds 9.7 km/s. -/
theorem C126_saturn (P : Planet) (hP : Planet.init "SATURN" = .ok P) :
    ∃ b, (⟨P.RP + 1000e3, 25e3, 0, 0, 0, π / 2⟩ : Terminal).exitStateBi P = some b ∧
      9700 ≤ V3.norm (vel b.theta b.phi b.v b.psi b.g
        - (vel 0 0 25e3 (π / 2) 0 + V3.cross (spin P.OMEGA) (pos (P.RP + 1000e3) 0 0))) := by
  have hRP := (C01_planet_consistent "SATURN" P hP).2.1
  obtain ⟨b, h1, h2⟩ := C126_northward_error P (P.RP + 1000e3) 25e3 (by norm_num; linarith) (by norm_num)
  refine ⟨b, h1, le_trans ?_ h2⟩
  simp [Planet.init] at hP; subst hP
  norm_num [Planet.withScales, abs_of_pos]

/-- Cases of `C126_exit_state_partial` and `C126_heading_iff`: leaving eastwards over the equator the state is right,
leaving northwards from a rotating planet it is not. -/
example (P : Planet) (hO : 0 < P.OMEGA) (r v : ℝ) (hr : 0 < r) (hv : 0 < v) :
    (∃ b, (⟨r, v, 0, 0, 0, 0⟩ : Terminal).exitStateBi P = some b ∧
      vel b.theta b.phi b.v b.psi b.g = vel 0 0 v 0 0 + V3.cross (spin P.OMEGA) (pos r 0 0)) ∧
    ∃ b, (⟨r, v, 0, 0, 0, π / 2⟩ : Terminal).exitStateBi P = some b ∧
      vel b.theta b.phi b.v b.psi b.g ≠ vel 0 0 v (π / 2) 0 + V3.cross (spin P.OMEGA) (pos r 0 0) := by
  have hOr : 0 < P.OMEGA * r := mul_pos hO hr
  constructor
  · have hU : vel 0 0 v 0 0 + V3.cross (spin P.OMEGA) (pos r 0 0) ≠ 0 := by
      intro h
      have := congrArg V3.y h
      simp [vel, along, horiz, up, east, north, V3.cross, spin, pos] at this
      linarith
    obtain ⟨b, hb, -⟩ := C126_exit_state_partial P ⟨r, v, 0, 0, 0, 0⟩ hr hU
    exact ⟨b, hb, (C126_heading_iff P _ hr b hb hU).mpr (Or.inr ⟨sin_zero, by simp; linarith⟩)⟩
  · have hU : vel 0 0 v (π / 2) 0 + V3.cross (spin P.OMEGA) (pos r 0 0) ≠ 0 := by
      intro h
      have := congrArg V3.z h
      simp [vel, along, horiz, up, east, north, V3.cross, spin, pos] at this
      exact hv.ne' this
    obtain ⟨b, hb, -⟩ := C126_exit_state_partial P ⟨r, v, 0, 0, 0, π / 2⟩ hr hU
    refine ⟨b, hb, fun h => ?_⟩
    rcases (C126_heading_iff P _ hr b hb hU).mp h with ⟨h1, -⟩ | ⟨h1, -⟩
    · simp at h1; exact hO.ne' h1
    · simp at h1

end AMAT.Props
