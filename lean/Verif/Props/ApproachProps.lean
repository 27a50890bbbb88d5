import Verif.Lemmas.Approach
import Verif.Spec.Entry
import Verif.Spec.Kepler
import Verif.Props.PlanetProps

/-
Properties C46–C50 and C67: frame changes and the arrival hyperbola.
-/

noncomputable section

open Classical

namespace AMAT.Props

open Real

/-! ### C46 -/

/-- C46: the three direction cosine matrices are proper rotations, undone by the opposite angle, for every angle. -/
theorem C46_rotations (t : ℝ) : Spec.IsRotation (R1 t).mulVec ∧ Spec.IsRotation (R2 t).mulVec ∧ Spec.IsRotation (R3 t).mulVec ∧
    ∀ v, (R1 (-t)).mulVec ((R1 t).mulVec v) = v ∧ (R2 (-t)).mulVec ((R2 t).mulVec v) = v ∧
      (R3 (-t)).mulVec ((R3 t).mulVec v) = v := by
  refine ⟨R1_rot t, R2_rot t, R3_rot t, fun v => ?_⟩
  have h := sin_sq_add_cos_sq t
  refine ⟨?_, ?_, ?_⟩ <;> ext <;> simp only [Mat3.mulVec, R1, R2, R3, V3.dot, sin_neg, cos_neg] <;> grind

/-- C46: ICRF → body-inertial is a proper rotation for every planet, maps the direction of the planet's pole (right
ascension `a0`, declination `d0`) to the `z` axis, and has the transposed rotation sequence as inverse. -/
theorem C46_icrf_to_bi (P : Planet) : Spec.IsRotation (icrfToBi P) ∧
    icrfToBi P ⟨cos P.d0 * cos P.a0, cos P.d0 * sin P.a0, sin P.d0⟩ = ⟨0, 0, 1⟩ ∧
    ∀ v, (R3 (-(π / 2 + P.a0))).mulVec ((R1 (-(π / 2 - P.d0))).mulVec (icrfToBi P v)) = v := by
  refine ⟨icrf_rot P, ?_, ?_⟩
  · have h1 := sin_sq_add_cos_sq P.d0
    have h2 := sin_sq_add_cos_sq P.a0
    unfold icrfToBi
    rw [mul_mulVec]
    ext <;> simp only [Mat3.mulVec, R1, R3, V3.dot, sin_pi_div_two_sub, cos_pi_div_two_sub, cos_add, sin_add, cos_pi_div_two,
      sin_pi_div_two] <;> grind
  · intro v
    unfold icrfToBi
    rw [mul_mulVec, ((C46_rotations _).2.2.2 _).1, ((C46_rotations _).2.2.2 _).2.2]

/-- C46: body-inertial → rotated target frame is a proper rotation for every arrival, and `pos_vec_bi_dprime` is that
rotation of `pos_vec_bi`. -/
theorem C46_bi_to_dprime (A : Approach) : Spec.IsRotation A.biToBiDprime ∧
    (∀ v, (R3 (-A.phi1)).mulVec ((R2 (-A.phi2)).mulVec (A.biToBiDprime v)) = v) ∧
    ∀ t, A.posVecDprime t = (A.posVec t).map A.biToBiDprime := by
  refine ⟨dprime_rot A, ?_, ?_⟩
  · intro v
    unfold Approach.biToBiDprime
    rw [mul_mulVec, ((C46_rotations _).2.2.2 _).2.1, ((C46_rotations _).2.2.2 _).2.2]
  · intro t
    unfold Approach.posVecDprime Approach.biToBiDprime
    cases A.posVec t <;> simp [mul_mulVec, pure, bind, Option.bind]

/-! ### C47 -/

theorem planet_gm_pos {name : String} {P : Planet} (hP : Planet.init name = .ok P) : 0 < P.GM := by
  unfold Planet.init at hP
  split_ifs at hP <;> (injection hP with hP; rw [← hP]; norm_num [Planet.withScales])

theorem approach_init_inv {name : String} {v : V3} {rp psi : ℝ} {b : Bool} {hEI : Option ℝ} {A : Approach}
    (h : Approach.init name v rp psi b hEI = .ok A) :
    ∃ P, Planet.init name = .ok P ∧ A.P = P ∧ A.vInfIcrfKms = v ∧ A.rp = rp ∧ A.psi = psi ∧
      (b = true → A.hEI = hEI ∧ hEI ≠ none) ∧ (b = false → A.hEI = none) := by
  unfold Approach.init at h
  cases hP : Planet.init name with
  | error e => rw [hP] at h; simp [bind, Except.bind] at h
  | ok P =>
    rw [hP] at h
    cases b <;> cases hEI <;> simp [bind, Except.bind, needNumber, pure, Except.pure] at h
    all_goals subst h; exact ⟨P, rfl, rfl, rfl, rfl, rfl, by simp, by simp⟩

/-- A 10 km/s arrival at Earth along the body-inertial x axis with any aim angle. -/
theorem earth_aim {rp psi : ℝ} (fl : Bool) (hE : Option ℝ) (hfl : fl = true → hE ≠ none) (hrp : 0 < rp) :
    ∃ A V e b h d u w, Approach.init "EARTH" ⟨0, 10, 0⟩ rp psi fl hE = .ok A ∧ ApproachCore A V e b h d u w ∧
      u = ⟨cos b, sin b * sin psi, -(sin b * cos psi)⟩ ∧ w = ⟨0, -cos psi, -sin psi⟩ ∧ A.P.RP = 6371e3 ∧ A.rp = rp ∧
      d = ⟨1, 0, 0⟩ ∧ V = 10000 := by
  obtain ⟨P, hP⟩ := (C01_planet_names "EARTH").1.mpr (by simp [Spec.bodies])
  have ha0 : P.a0 = 0 := by simp [Planet.init] at hP; subst hP; simp [Planet.withScales]
  have hd0 : P.d0 = π / 2 := by
    have : P.d0 = 90.0 * π / 180.0 := by simp [Planet.init] at hP; subst hP; simp [Planet.withScales]; norm_num
    rw [this]; norm_num; ring
  have hRP : P.RP = 6371e3 := by simp [Planet.init] at hP; subst hP; rfl
  have hinit : ∃ hE', Approach.init "EARTH" ⟨0, 10, 0⟩ rp psi fl hE = .ok ⟨P, ⟨0, 10, 0⟩, rp, psi, hE'⟩ := by
    unfold Approach.init
    rw [hP]
    cases fl with
    | false => exact ⟨none, rfl⟩
    | true =>
      cases hE with
      | none => exact absurd rfl (hfl rfl)
      | some x => exact ⟨some x, rfl⟩
  obtain ⟨hE', hA⟩ := hinit
  set A : Approach := ⟨P, ⟨0, 10, 0⟩, rp, psi, hE'⟩ with hAd
  have hv : A.vInfIcrfKms ≠ 0 := by
    intro h0
    have := congrArg V3.y h0
    simp only [hAd, V3.zero_y] at this
    norm_num at this
  obtain ⟨V, e, b, h, d, u, w, H⟩ := approach_core A (planet_gm_pos hP) hv hrp
  have hbi : A.vInfBi = ⟨10000, 0, 0⟩ := by
    unfold Approach.vInfBi Approach.vInfBiKms icrfToBi
    rw [mul_mulVec]
    have h1 : A.P.a0 = 0 := ha0
    have h2 : A.P.d0 = π / 2 := hd0
    rw [h1, h2]
    ext <;> simp [Mat3.mulVec, R1, R3, V3.dot, hAd]; norm_num
  have hV : V = 10000 := by
    rw [H.hV, ← vInfBi_norm, hbi]
    apply V3.norm_eq_of_sq (by norm_num)
    simp only [V3.dot]; norm_num
  have hx : d = ⟨1, 0, 0⟩ := by
    have h1 := H.hvd
    rw [hbi, hV] at h1
    have hx := congrArg V3.x h1
    have hy := congrArg V3.y h1
    have hz := congrArg V3.z h1
    simp only [V3.smul_x, V3.smul_y, V3.smul_z] at hx hy hz
    ext <;> simp only <;> linarith
  have c1 : cos A.phi1 = 1 ∧ sin A.phi1 = 0 := by
    have a1 := arctan2_cos A.vInfBi.y A.vInfBi.x
    have a2 := arctan2_sin A.vInfBi.y A.vInfBi.x
    rw [hbi] at a1 a2
    have hq : sqrt ((10000:ℝ) ^ 2 + 0 ^ 2) = 10000 := by
      rw [show (10000:ℝ) ^ 2 + 0 ^ 2 = 10000 ^ 2 by ring, sqrt_sq (by norm_num)]
    simp only at a1 a2
    rw [hq] at a1 a2
    have hp : A.phi1 = arctan2 0 10000 := by unfold Approach.phi1; rw [hbi]
    rw [hp]
    constructor <;> linarith
  have c2 : cos A.phi2 = 0 ∧ sin A.phi2 = 1 := by
    have h1 := H.hd
    rw [hx, c1.1, c1.2] at h1
    have hx := congrArg V3.x h1
    have hz := congrArg V3.z h1
    simp only at hx hz
    exact ⟨hz.symm, by linarith⟩
  have hu : u = ⟨cos b, sin b * sin psi, -(sin b * cos psi)⟩ := by
    have h1 := H.hu
    unfold Approach.rpUnit at h1
    rw [H.hb] at h1
    simp only [bind, Option.bind, pure, Option.some.injEq] at h1
    rw [← h1, c1.1, c1.2, c2.1, c2.2]
    have hp : A.psi = psi := rfl
    rw [hp]
    ext <;> simp
  have hw : w = ⟨0, -cos psi, -sin psi⟩ := by
    have h1 := H.ws
    rw [hu, hx] at h1
    have hsb := H.sb
    have hx := congrArg V3.x h1
    have hy := congrArg V3.y h1
    have hz := congrArg V3.z h1
    simp only [V3.cross, V3.smul_x, V3.smul_y, V3.smul_z] at hx hy hz
    ext <;> simp only
    · apply mul_left_cancel₀ hsb.ne'; linarith
    · apply mul_left_cancel₀ hsb.ne'; linarith
    · apply mul_left_cancel₀ hsb.ne'; linarith
  exact ⟨A, V, e, b, h, d, u, w, hA, H, hu, hw, hRP, rfl, hx, hV⟩

/-- One concrete arrival used as the case beside the theorems: Earth, 10 km/s, periapsis at the surface, aim angle 0, entry
interface at 120 km.  Its orbit is polar. -/
theorem demo_arrival : ∃ A Hv, Approach.init "EARTH" ⟨0, 10, 0⟩ 6371e3 0 true (some 120e3) = .ok A ∧
    (⟨0, 10, 0⟩ : V3) ≠ 0 ∧ A.hVec = some Hv ∧ (Hv.x ≠ 0 ∨ Hv.y ≠ 0) ∧ (A.vInfBi.x ≠ 0 ∨ A.vInfBi.y ≠ 0) ∧
    A.P.RP = 6371e3 := by
  obtain ⟨A, V, e, b, h, d, u, w, hA, H, hu, hw, hRP, harp, hd, hV⟩ :=
    earth_aim (rp := 6371e3) (psi := 0) true (some 120e3) (by simp) (by norm_num)
  refine ⟨A, _, hA, fun h0 => ?_, H.hhv, Or.inr ?_, Or.inl ?_, hRP⟩
  · have := congrArg V3.y h0
    simp at this
  · have := H.sb; have := H.rp; have := H.vpos
    rw [hw]; simp only [V3.smul_y, cos_zero]
    have : 0 < A.rp * V * sin b := by positivity
    linarith
  · rw [H.hvd, hd, hV]; simp

/-- C47: for every known planet, non-zero arrival velocity and positive periapsis radius: the semi-major axis is negative,
the eccentricity exceeds one, `rp = a(1-e)`, the energy is that of the arrival speed, the angular momentum is periapsis
radius times periapsis speed and also impact parameter times arrival speed, and `b² = rp² + 2 rp GM / v∞²`. -/
theorem C47_hyperbola (name : String) (v : V3) (rp psi : ℝ) (b : Bool) (hEI : Option ℝ) (A : Approach)
    (hA : Approach.init name v rp psi b hEI = .ok A) (hv : v ≠ 0) (hrp : 0 < rp) :
    ∃ a e h B, A.a = some a ∧ A.e = some e ∧ A.h = some h ∧ A.bMag = some B ∧ a < 0 ∧ 1 < e ∧ rp = a * (1 - e) ∧
      -A.P.GM / (2 * a) = A.vInfMag ^ 2 / 2 ∧ A.vInfMag = 1000 * V3.norm v ∧
      h = rp * sqrt (A.vInfMag ^ 2 + 2 * A.P.GM / rp) ∧ h = B * A.vInfMag ∧ 0 < B ∧
      B ^ 2 = rp ^ 2 + 2 * rp * A.P.GM / A.vInfMag ^ 2 := by
  obtain ⟨P, hP, hAP, rfl, rfl, -, -⟩ := approach_init_inv hA
  have hg : 0 < A.P.GM := by rw [hAP]; exact planet_gm_pos hP
  obtain ⟨V, e, bb, h, d, u, w, H⟩ := approach_core A hg hv hrp
  have hVp := H.vpos
  have he1 := H.e1
  have hV2 : A.P.GM * (e - 1) = A.rp * V ^ 2 := by rw [H.heq]; field_simp; ring
  have hB : A.bMag = some (A.P.GM / V ^ 2 * sqrt (e ^ 2 - 1)) := by
    unfold Approach.bMag
    rw [H.ha, H.he]
    simp only [bind, Option.bind, pure]
    rw [npSqrt_some (by nlinarith)]
    simp only [Option.some.injEq]
    rw [neg_div, abs_neg, abs_of_pos (by positivity)]
  have hs : 0 < sqrt (e ^ 2 - 1) := sqrt_pos.mpr (by nlinarith)
  have hs2 : sqrt (e ^ 2 - 1) ^ 2 = e ^ 2 - 1 := sq_sqrt (by nlinarith)
  have hBp : 0 < A.P.GM / V ^ 2 * sqrt (e ^ 2 - 1) := by positivity
  have hB2 : (A.P.GM / V ^ 2 * sqrt (e ^ 2 - 1)) ^ 2 = A.rp ^ 2 + 2 * A.rp * A.P.GM / V ^ 2 := by
    rw [mul_pow, hs2, div_pow]
    have : e ^ 2 - 1 = (e - 1) * ((e - 1) + 2) := by ring
    have h3 : A.P.GM ^ 2 / (V ^ 2) ^ 2 * (e ^ 2 - 1) = (A.P.GM * (e - 1)) * (A.P.GM * (e - 1) + 2 * A.P.GM) / (V ^ 2) ^ 2 := by
      rw [this]; ring
    rw [h3, hV2]
    field_simp
  refine ⟨_, e, h, _, H.ha, H.he, H.hh, hB, ?_, he1, ?_, ?_, ?_, ?_, ?_, hBp, ?_⟩
  · rw [neg_div]; have : 0 < A.P.GM / V ^ 2 := by positivity
    linarith
  · rw [div_mul_eq_mul_div, eq_div_iff (by positivity)]; linarith
  · rw [← H.hV]; field_simp
  · unfold Approach.vInfMag; rw [show (1e3:ℝ) = 1000 by norm_num]; ring
  · rw [← H.hV]
    have e2 : h ^ 2 = (A.rp * sqrt (V ^ 2 + 2 * A.P.GM / A.rp)) ^ 2 := by
      rw [mul_pow, sq_sqrt (by positivity), H.hsq]
      field_simp
      linear_combination hV2
    exact (pow_left_inj₀ H.hpos.le (by positivity) two_ne_zero).mp e2
  · rw [← H.hV]
    have e2 : h ^ 2 = (A.P.GM / V ^ 2 * sqrt (e ^ 2 - 1) * V) ^ 2 := by
      rw [mul_pow, hB2, H.hsq]
      field_simp
      linear_combination hV2
    exact (pow_left_inj₀ H.hpos.le (by positivity) two_ne_zero).mp e2
  · rw [← H.hV]; exact hB2

/-- The concrete arrival is a hyperbola. -/
example : ∃ A e, Approach.init "EARTH" ⟨0, 10, 0⟩ 6371e3 0 true (some 120e3) = .ok A ∧ A.e = some e ∧ 1 < e := by
  obtain ⟨A, Hv, hA, hv, -⟩ := demo_arrival
  obtain ⟨a, e, h, B, -, he, -, -, -, h1, -⟩ := C47_hyperbola _ _ _ _ _ _ A hA hv (by norm_num)
  exact ⟨A, e, hA, he, h1⟩

/-- Construction fails exactly for unknown bodies and for entry systems without an entry altitude. -/
theorem C47_construction (name : String) (v : V3) (rp psi : ℝ) (b : Bool) (hEI : Option ℝ) :
    (∃ A, Approach.init name v rp psi b hEI = .ok A) ↔ name ∈ Spec.bodies ∧ (b = true → hEI ≠ none) := by
  rw [← (C01_planet_names name).1]
  constructor
  · rintro ⟨A, hA⟩
    obtain ⟨P, hP, -, -, -, -, h1, -⟩ := approach_init_inv hA
    exact ⟨⟨P, hP⟩, fun hb => (h1 hb).2⟩
  · rintro ⟨⟨P, hP⟩, hb⟩
    unfold Approach.init
    rw [hP]
    cases b <;> cases hEI <;> simp_all [bind, Except.bind, needNumber, pure, Except.pure]

/-- An entry system without interface altitude is refused, an orbiter is accepted. -/
example : (¬ ∃ A, Approach.init "EARTH" ⟨0, 10, 0⟩ 6371e3 0 true none = .ok A) ∧
    ∃ A, Approach.init "EARTH" ⟨0, 10, 0⟩ 6371e3 0 false none = .ok A :=
  ⟨fun h => ((C47_construction _ _ _ _ _ _).mp h).2 rfl rfl, (C47_construction _ _ _ _ _ _).mpr (by simp [Spec.bodies])⟩

/-! ### C48 -/

/-- C48: the periapsis vector has length `rp` and makes the asymptote angle `arccos(1/e)` with the arrival direction, for
every aim angle; in the rotated frame the arrival velocity is along `+z` and the periapsis direction has polar angle `β`
and azimuth `ψ`. -/
theorem C48_periapsis (name : String) (v : V3) (rp psi : ℝ) (b : Bool) (hEI : Option ℝ) (A : Approach)
    (hA : Approach.init name v rp psi b hEI = .ok A) (hv : v ≠ 0) (hrp : 0 < rp) :
    ∃ R e, A.rpVec = some R ∧ A.e = some e ∧ V3.norm R = rp ∧
      V3.dot R A.vInfBi = rp * A.vInfMag * (1 / e) ∧ V3.norm A.vInfBi = A.vInfMag ∧
      A.biToBiDprime A.vInfBi = ⟨0, 0, A.vInfMag⟩ ∧
      A.biToBiDprime R = rp • (⟨sin (arccos (1 / e)) * cos psi, sin (arccos (1 / e)) * sin psi, 1 / e⟩ : V3) ∧
      A.rpVecDprime = A.rpVecDprimeAnalytic ∧ A.phi2 = A.phi2Analytic := by
  obtain ⟨P, hP, hAP, rfl, rfl, rfl, -⟩ := approach_init_inv hA
  have hg : 0 < A.P.GM := by rw [hAP]; exact planet_gm_pos hP
  obtain ⟨V, e, bb, h, d, u, w, H⟩ := approach_core A hg hv hrp
  have hR : A.rpVec = some (A.rp • u) := by unfold Approach.rpVec; rw [H.hu]; rfl
  have hbb : bb = arccos (1 / e) := by
    rw [← H.cb, arccos_cos H.b0.le (by linarith [H.bpi, pi_pos])]
  have hdp : A.biToBiDprime (A.rp • u) = A.rp • (⟨sin bb * cos A.psi, sin bb * sin A.psi, cos bb⟩ : V3) := by
    rw [(dprime_rot A).smul, H.udp]
  refine ⟨_, e, hR, H.he, ?_, ?_, vInfBi_norm A, ?_, ?_, ?_, ?_⟩
  · rw [V3.norm_smul, V3.norm_of_dot_one H.uu, abs_of_pos hrp, mul_one]
  · rw [H.hvd, V3.dot_smul_left, V3.dot_smul_right, H.ud, H.cb, H.hV]; ring
  · rw [H.hvd, (dprime_rot A).smul, H.ddp, ← H.hV]
    ext <;> simp
  · rw [hdp, ← hbb, H.cb]
  · unfold Approach.rpVecDprime Approach.rpVecDprimeAnalytic
    rw [hR, H.hb]
    simp only [bind, Option.bind, pure, hdp]
  · unfold Approach.phi2 Approach.phi2Analytic Approach.vInfBiPrime
    congr 1 <;> simp only [R3, Mat3.mulVec, V3.dot] <;> ring

/-- The periapsis of the concrete arrival lies on the surface of the Earth. -/
example : ∃ A R, Approach.init "EARTH" ⟨0, 10, 0⟩ 6371e3 0 true (some 120e3) = .ok A ∧ A.rpVec = some R ∧
    V3.norm R = 6371e3 := by
  obtain ⟨A, Hv, hA, hv, -⟩ := demo_arrival
  obtain ⟨R, e, hR, -, hn, -⟩ := C48_periapsis _ _ _ _ _ _ A hA hv (by norm_num)
  exact ⟨A, R, hA, hR, hn⟩

/-! ### C67: B-plane angle -/

/-- C67: the reported B-plane angle `ψ + π/2` is the angle of the aim point `B̂` from `T̂` towards `R̂`, for every arrival
that is not along the planet's pole. -/
theorem C67_bplane_angle (name : String) (v : V3) (rp psi : ℝ) (b : Bool) (hEI : Option ℝ) (A : Approach)
    (hA : Approach.init name v rp psi b hEI = .ok A) (hrp : 0 < rp)
    (hpole : A.vInfBi.x ≠ 0 ∨ A.vInfBi.y ≠ 0) :
    ∃ T R B, A.tUnit = some T ∧ A.rUnit = some R ∧ A.bUnit = some B ∧
      B = cos A.bPlaneTheta • T + sin A.bPlaneTheta • R ∧
      V3.dot T T = 1 ∧ V3.dot R R = 1 ∧ V3.dot T R = 0 ∧ V3.dot T A.vInfBi = 0 ∧ V3.dot R A.vInfBi = 0 := by
  obtain ⟨P, hP, hAP, rfl, rfl, rfl, -⟩ := approach_init_inv hA
  have hg : 0 < A.P.GM := by rw [hAP]; exact planet_gm_pos hP
  have hv : A.vInfIcrfKms ≠ 0 := by
    intro h0
    have hm : A.vInfMag = 0 := by unfold Approach.vInfMag; rw [h0, V3.norm_eq_zero.mpr rfl, zero_mul]
    have := vInfBi_norm A
    rw [hm, V3.norm_eq_zero] at this
    rw [this] at hpole
    simp at hpole
  obtain ⟨V, e, bb, h, d, u, w, H⟩ := approach_core A hg hv hrp
  have hVp := H.vpos
  have s1 := sin_sq_add_cos_sq A.phi1
  have s2 := sin_sq_add_cos_sq A.phi2
  have s3 := sin_sq_add_cos_sq A.psi
  -- sin φ2 > 0
  have hs2 : 0 < sin A.phi2 := by
    have hx : A.vInfBi.x ^ 2 + A.vInfBi.y ^ 2 = (V * sin A.phi2) ^ 2 := by
      rw [H.hvd, H.hd]; simp only [V3.smul_x, V3.smul_y]
      linear_combination (V * sin A.phi2) ^ 2 * s1
    have hx0 : 0 < A.vInfBi.x ^ 2 + A.vInfBi.y ^ 2 := by
      rcases hpole with h | h
      · have := sq_pos_of_ne_zero h; positivity
      · have := sq_pos_of_ne_zero h; positivity
    have hne : sin A.phi2 ≠ 0 := by
      intro h0; rw [hx, h0] at hx0; simp at hx0
    refine lt_of_le_of_ne ?_ hne.symm
    have h3 := arctan2_sin A.vInfBiPrime.x A.vInfBiPrime.z
    have h4 : 0 ≤ A.vInfBiPrime.x := by
      have c1 := arctan2_cos A.vInfBi.y A.vInfBi.x
      have d1 := arctan2_sin A.vInfBi.y A.vInfBi.x
      have : A.vInfBiPrime.x = sqrt (A.vInfBi.x ^ 2 + A.vInfBi.y ^ 2) := by
        have e1 : A.vInfBiPrime.x = cos A.phi1 * A.vInfBi.x + sin A.phi1 * A.vInfBi.y := by
          simp only [Approach.vInfBiPrime, R3, Mat3.mulVec, V3.dot]; ring
        rw [e1]
        change cos A.phi1 * A.vInfBi.x + sin A.phi1 * A.vInfBi.y = _
        change sqrt (A.vInfBi.x ^ 2 + A.vInfBi.y ^ 2) * cos A.phi1 = _ at c1
        change sqrt (A.vInfBi.x ^ 2 + A.vInfBi.y ^ 2) * sin A.phi1 = _ at d1
        linear_combination (sqrt (A.vInfBi.x ^ 2 + A.vInfBi.y ^ 2)) * s1 - cos A.phi1 * c1 - sin A.phi1 * d1
      rw [this]; exact sqrt_nonneg _
    by_contra hc
    push Not at hc
    rw [← h3] at h4
    have h5 : sqrt (A.vInfBiPrime.z ^ 2 + A.vInfBiPrime.x ^ 2) = 0 := by
      by_contra h6
      have h7 : 0 < sqrt (A.vInfBiPrime.z ^ 2 + A.vInfBiPrime.x ^ 2) := lt_of_le_of_ne (sqrt_nonneg _) (Ne.symm h6)
      have : sqrt (A.vInfBiPrime.z ^ 2 + A.vInfBiPrime.x ^ 2) * sin A.phi2 < 0 := mul_neg_of_pos_of_neg h7 hc
      exact absurd h4 (not_le.mpr this)
    have h8 := arctan2_cos A.vInfBiPrime.x A.vInfBiPrime.z
    rw [h5, zero_mul] at h8 h3
    have : A.phi2 = 0 := by
      unfold Approach.phi2; rw [← h3, ← h8]; unfold arctan2; exact Complex.arg_zero
    rw [this, sin_zero] at hne
    exact hne rfl
  have unit_of : ∀ (k : ℝ) (n : V3), 0 < k → V3.dot n n = 1 → npUnit (k • n) = some n := by
    intro k n hk hn
    have hnorm : V3.norm (k • n) = k := by rw [V3.norm_smul, V3.norm_of_dot_one hn, abs_of_pos hk, mul_one]
    have hne : k • n ≠ 0 := by intro h0; rw [h0, V3.norm_eq_zero.mpr rfl] at hnorm; linarith
    rw [npUnit_some hne, hnorm, V3.smul_smul, one_div_mul_cancel hk.ne', V3.one_smul]
  set T : V3 := ⟨sin A.phi1, -cos A.phi1, 0⟩ with hT
  set R : V3 := ⟨cos A.phi2 * cos A.phi1, cos A.phi2 * sin A.phi1, -sin A.phi2⟩ with hR
  have hTT : V3.dot T T = 1 := by simp only [V3.dot, hT]; linear_combination s1
  have hRR : V3.dot R R = 1 := by simp only [V3.dot, hR]; linear_combination cos A.phi2 ^ 2 * s1 + s2
  have eT : V3.cross A.vInfBi ⟨0, 0, 1⟩ = (V * sin A.phi2) • T := by
    rw [H.hvd, H.hd]; ext <;> simp only [V3.cross, hT, V3.smul_x, V3.smul_y, V3.smul_z] <;> ring
  have eR : V3.cross A.vInfBi (V3.cross A.vInfBi ⟨0, 0, 1⟩) = (V ^ 2 * sin A.phi2) • R := by
    rw [eT, H.hvd, H.hd]
    ext <;> simp only [V3.cross, hT, hR, V3.smul_x, V3.smul_y, V3.smul_z]
    · ring
    · ring
    · linear_combination (-(V ^ 2 * sin A.phi2 ^ 2)) * s1
  have hdw : V3.dot d w = 0 := by
    have h1 := V3.dot_cross_right u d
    rw [H.ws, V3.dot_smul_right] at h1
    rcases mul_eq_zero.mp h1 with h | h
    · have := H.sb; linarith
    · exact h
  -- the aim direction
  set B : V3 := V3.cross d w with hB
  have hBB : V3.dot B B = 1 := by rw [hB, V3.dot_cross_self, H.dd, H.ww, hdw]; norm_num
  have hBu : A.bUnit = some B := by
    unfold Approach.bUnit Approach.bVec
    rw [H.hhv]
    simp only [bind, Option.bind]
    rw [H.hvd, V3.cross_smul_left, V3.cross_smul_right, V3.smul_smul]
    have := H.sb; have := H.rp
    exact unit_of _ _ (by positivity) hBB
  -- express it through u: d × w = (u - cos b d)/sin b
  have hsBu : sin bb • B = u - cos bb • d := by
    have e1 : sin bb • B = V3.cross d (V3.cross u d) := by rw [H.ws, V3.cross_smul_right]
    have e2 : V3.cross d (V3.cross u d) = V3.dot d d • u - V3.dot u d • d := by
      ext <;> simp only [V3.cross, V3.dot, V3.sub_x, V3.sub_y, V3.sub_z, V3.smul_x, V3.smul_y, V3.smul_z] <;> ring
    rw [e1, e2, H.dd, H.ud, V3.one_smul]
  have hu' := H.hu
  unfold Approach.rpUnit at hu'
  rw [H.hb] at hu'
  simp only [bind, Option.bind, pure, Option.some.injEq] at hu'
  have hBeq : B = cos A.bPlaneTheta • T + sin A.bPlaneTheta • R := by
    have hsb := H.sb
    have key : sin bb • B = sin bb • (cos A.bPlaneTheta • T + sin A.bPlaneTheta • R) := by
      rw [hsBu, ← hu', H.hd]
      unfold Approach.bPlaneTheta
      ext <;> simp only [V3.sub_x, V3.sub_y, V3.sub_z, V3.add_x, V3.add_y, V3.add_z, V3.smul_x, V3.smul_y, V3.smul_z,
        cos_add_pi_div_two, sin_add_pi_div_two, hT, hR] <;> ring
    have h2 := congrArg (fun x => (1 / sin bb) • x) key
    simpa only [V3.smul_smul, one_div_mul_cancel hsb.ne', V3.one_smul] using h2
  refine ⟨T, R, B, ?_, ?_, hBu, hBeq, hTT, hRR, ?_, ?_, ?_⟩
  · unfold Approach.tUnit; rw [eT]; exact unit_of _ _ (by positivity) hTT
  · unfold Approach.rUnit; rw [eR]; exact unit_of _ _ (by positivity) hRR
  · simp only [V3.dot, hT, hR]; ring
  · rw [H.hvd, H.hd]; simp only [V3.dot, hT, V3.smul_x, V3.smul_y, V3.smul_z]; ring
  · rw [H.hvd, H.hd]; simp only [V3.dot, hR, V3.smul_x, V3.smul_y, V3.smul_z]
    linear_combination (V * sin A.phi2 * cos A.phi2) * s1

/-- The concrete arrival has a B-plane. -/
example : ∃ A T R B, Approach.init "EARTH" ⟨0, 10, 0⟩ 6371e3 0 true (some 120e3) = .ok A ∧ A.tUnit = some T ∧
    A.rUnit = some R ∧ A.bUnit = some B ∧ B = cos A.bPlaneTheta • T + sin A.bPlaneTheta • R := by
  obtain ⟨A, Hv, hA, -, -, -, hp, -⟩ := demo_arrival
  obtain ⟨T, R, B, hT, hR, hB, h, -⟩ := C67_bplane_angle _ _ _ _ _ _ A hA (by norm_num) hp
  exact ⟨A, T, R, B, hA, hT, hR, hB, h⟩

end AMAT.Props
