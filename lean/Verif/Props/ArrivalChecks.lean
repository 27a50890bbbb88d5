import Verif.Props.EntryAtmosphere

/-
Properties C120 and C121: the second entry latitude the arrival object stores, and the B-plane axes in the frame of the
arrival direction.
-/

noncomputable section

open Classical

namespace AMAT.Props

open Real

/-! ### C120: the two entry latitudes -/

/-- Tangent of the latitude of a unit vector off the plane `x = 0`, in the code's second form. -/
theorem analytic_lat {n : V3} (hn : V3.dot n n = 1) (hx : n.x ≠ 0) :
    n.x * cos (arctan (n.y / n.x)) + n.y * sin (arctan (n.y / n.x)) = n.x / |n.x| * sqrt (n.x ^ 2 + n.y ^ 2) ∧
    arctan (n.z / sqrt (n.x ^ 2 + n.y ^ 2)) = arcsin n.z := by
  unfold V3.dot at hn
  have hx2 : 0 < n.x ^ 2 := by positivity
  have hy2 := sq_nonneg n.y
  have h3 : 0 < sqrt (n.x ^ 2 + n.y ^ 2) := sqrt_pos.mpr (by positivity)
  have h4 : 0 < |n.x| := abs_pos.mpr hx
  have h2 : sqrt (1 + (n.y / n.x) ^ 2) = sqrt (n.x ^ 2 + n.y ^ 2) / |n.x| := by
    rw [← sqrt_sq_eq_abs, ← sqrt_div (by positivity)]; congr 1; field_simp
  have h5 : sqrt (n.x ^ 2 + n.y ^ 2) ^ 2 = n.x ^ 2 + n.y ^ 2 := sq_sqrt (by positivity)
  have h6 : |n.x| ^ 2 = n.x ^ 2 := sq_abs _
  constructor
  · rw [cos_arctan, sin_arctan, h2]
    field_simp
    rw [h5, h6]; ring
  · have hz : n.z ∈ Set.Ioo (-1) 1 := by constructor <;> nlinarith
    rw [arcsin_eq_arctan hz]
    congr 3
    linarith

/-- What the code stores as second latitude, for every entry position off the plane `x = 0`. -/
theorem entry_second_latitude {A : Approach} {hE : ℝ} {R : V3} (hR : A.rVecEntry hE = some R) (hx : R.x ≠ 0) :
    A.latitudeEntry hE = some (arcsin (R.z / V3.norm R)) ∧
    A.latitudeEntryAnalytic hE = some (R.x / |R.x| * arcsin (R.z / V3.norm R)) := by
  have h0 : R ≠ 0 := by rintro rfl; exact hx rfl
  have hn := V3.norm_pos h0
  have hu := entry_unit hR h0
  have hux : (Spec.radial R).x ≠ 0 := mul_ne_zero (one_div_pos.mpr hn).ne' hx
  have hz : (Spec.radial R).z = R.z / V3.norm R := by simp only [Spec.radial, V3.smul_z]; ring
  have hsg : (Spec.radial R).x / |(Spec.radial R).x| = R.x / |R.x| := by
    simp only [Spec.radial, V3.smul_x]
    rw [abs_mul, abs_of_pos (one_div_pos.mpr hn)]
    have := abs_pos.mpr hx
    field_simp
  obtain ⟨a1, a2⟩ := analytic_lat (n := Spec.radial R) (V3.unit_dot_self h0) hux
  have hs : 0 < sqrt ((Spec.radial R).x ^ 2 + (Spec.radial R).y ^ 2) := sqrt_pos.mpr (by positivity)
  have hlon : A.longitudeEntry hE = some (arctan ((Spec.radial R).y / (Spec.radial R).x)) := by
    unfold Approach.longitudeEntry; rw [hu]; simp only [bind, Option.bind]; rw [npDiv_some hux]; rfl
  have ax := abs_pos.mpr hx
  constructor
  · unfold Approach.latitudeEntry; rw [hu]; simp only [bind, Option.bind, pure]; rw [hz]
  · unfold Approach.latitudeEntryAnalytic
    rw [hu, hlon]
    simp only [bind, Option.bind]
    rw [a1, hsg, npDiv_some (mul_ne_zero (div_ne_zero hx ax.ne') hs.ne')]
    simp only [pure, Option.some.injEq]
    rcases lt_or_gt_of_ne hx with h | h
    · rw [abs_of_neg h, div_neg, div_self hx, neg_one_mul, neg_one_mul, div_neg, arctan_neg, a2, hz]
    · rw [abs_of_pos h, div_self hx, one_mul, one_mul, a2, hz]

/-- C120 (partial: entry positions with `x > 0` only; see `C120_wrong_hemisphere`).  The latitude of the entry position, the
angle in `[-π/2, π/2]` whose sine is `z/|R|`, is stored by both attributes. -/
theorem C120_latitudes_agree_partial (A : Approach) (hE : ℝ) (R : V3) (hR : A.rVecEntry hE = some R) (hx : 0 < R.x) :
    ∃ lat, A.latitudeEntry hE = some lat ∧ A.latitudeEntryAnalytic hE = some lat ∧
      -(π / 2) ≤ lat ∧ lat ≤ π / 2 ∧ V3.norm R * sin lat = R.z := by
  obtain ⟨h1, h2⟩ := entry_second_latitude hR hx.ne'
  have h0 : R ≠ 0 := by rintro rfl; exact lt_irrefl _ hx
  have hn := V3.norm_pos h0
  rw [abs_of_pos hx, div_self hx.ne', one_mul] at h2
  refine ⟨_, h1, h2, neg_pi_div_two_le_arcsin _, arcsin_le_pi_div_two _, ?_⟩
  have hu := V3.unit_dot_self h0
  simp only [V3.dot, V3.smul_x, V3.smul_y, V3.smul_z] at hu
  have hz : R.z / V3.norm R = 1 / V3.norm R * R.z := by ring
  rw [sin_arcsin (by rw [hz]; nlinarith [sq_nonneg (1 / V3.norm R * R.x), sq_nonneg (1 / V3.norm R * R.y)])
    (by rw [hz]; nlinarith [sq_nonneg (1 / V3.norm R * R.x), sq_nonneg (1 / V3.norm R * R.y)])]
  field_simp

/-- Finding behind C120: for entry positions with `x < 0` the second latitude has the wrong sign: a northern entry is stored
as a southern one of the same size, so the two attributes agree only on the equator. -/
theorem C120_wrong_hemisphere (A : Approach) (hE : ℝ) (R : V3) (hR : A.rVecEntry hE = some R) (hx : R.x < 0) :
    ∃ lat, A.latitudeEntry hE = some lat ∧ A.latitudeEntryAnalytic hE = some (-lat) ∧
      (A.latitudeEntryAnalytic hE = A.latitudeEntry hE ↔ R.z = 0) := by
  obtain ⟨h1, h2⟩ := entry_second_latitude hR hx.ne
  have h0 : R ≠ 0 := by rintro rfl; exact lt_irrefl _ hx
  have hn := V3.norm_pos h0
  rw [abs_of_neg hx, div_neg, div_self hx.ne, neg_one_mul] at h2
  refine ⟨_, h1, h2, ?_⟩
  rw [h1, h2, Option.some.injEq]
  constructor
  · intro h
    have : arcsin (R.z / V3.norm R) = 0 := by linarith
    rw [arcsin_eq_zero_iff] at this
    exact (div_eq_zero_iff.mp this).resolve_right hn.ne'
  · intro h; rw [h, zero_div, arcsin_zero, neg_zero]

/-- The two polar arrivals at Earth (from +x and from −x) that enter at periapsis, well away from the equator. -/
theorem polar_entry {s : ℝ} (hs : s = 1 ∨ s = -1) :
    ∃ A R, Approach.init "EARTH" ⟨0, 10 * s, 0⟩ 6371e3 0 true (some 0) = .ok A ∧
    A.rVecEntry 0 = some R ∧ 0 < s * R.x ∧ R.z < 0 := by
  obtain ⟨A, V, e, b, h, d, u, w, hA, H, hV, hd, hu, hw, hRP, hOM, hrp⟩ :=
    earth_polar (s := s) (rp := 6371e3) (hE := 0) hs (by norm_num)
  have hn : w.x ≠ 0 ∨ w.y ≠ 0 := by
    right; rw [hw]; rcases hs with rfl | rfl <;> norm_num
  have hr : A.rEI 0 = A.rp := by unfold Approach.rEI; rw [hRP, hrp, add_zero]
  obtain ⟨t, ht, ht1, ht2, hc, hre, hR, hU⟩ := Core.entry H hn (hE := 0) hr.ge
  refine ⟨A, _, hA, hR, ?_⟩
  have hrpp := H.rp; have hg := H.gm; have he := H.e1
  have hcos : cos t = 1 := by
    rw [hr, H.hsq] at hre
    rw [div_eq_iff hc.ne', div_eq_iff hg.ne'] at hre
    have : A.P.GM * A.rp * e * (cos t - 1) = 0 := by linarith
    have hne : A.P.GM * A.rp * e ≠ 0 := by positivity
    have := (mul_eq_zero.mp this).resolve_left hne
    linarith
  have hsin : sin t = 0 := by
    have := sin_sq_add_cos_sq t
    rw [hcos] at this
    have : sin t ^ 2 = 0 := by linarith
    exact pow_eq_zero_iff two_ne_zero |>.mp this
  unfold cPos
  rw [hre, hr, hcos, hsin, hu]
  simp only [V3.add_x, V3.smul_x, V3.add_z, V3.smul_z]
  have hcb : 0 < cos b := by rw [H.cb]; positivity
  have h1 := mul_pos hrpp hcb
  have h2 := mul_pos hrpp H.sb
  have h3 : s * s = 1 := by rcases hs with rfl | rfl <;> norm_num
  constructor
  · have : s * (A.rp * (1 * (s * cos b) + 0 * (V3.cross w ⟨s * cos b, 0, -sin b⟩).x)) = A.rp * cos b := by
      linear_combination A.rp * cos b * h3
    rw [this]; exact h1
  · nlinarith

/-- Case for `C120_latitudes_agree_partial`: the arrival from +x. -/
example : ∃ A R lat, Approach.init "EARTH" ⟨0, 10 * 1, 0⟩ 6371e3 0 true (some 0) = .ok A ∧ A.rVecEntry 0 = some R ∧
    A.latitudeEntry 0 = some lat ∧ A.latitudeEntryAnalytic 0 = some lat ∧ R.z < 0 := by
  obtain ⟨A, R, h1, h2, h3, h4⟩ := polar_entry (s := 1) (Or.inl rfl)
  rw [one_mul] at h3
  obtain ⟨lat, e1, e2, -⟩ := C120_latitudes_agree_partial A 0 R h2 h3
  exact ⟨A, R, lat, h1, h2, e1, e2, h4⟩

/-- The finding is reachable: the arrival from −x enters in the south and its second latitude is northern. -/
theorem C120_wrong_hemisphere_reachable : ∃ A R lat, Approach.init "EARTH" ⟨0, 10 * (-1), 0⟩ 6371e3 0 true (some 0) = .ok A ∧
    A.rVecEntry 0 = some R ∧ R.x < 0 ∧ R.z < 0 ∧ A.latitudeEntry 0 = some lat ∧ A.latitudeEntryAnalytic 0 = some (-lat) ∧
    lat < 0 := by
  obtain ⟨A, R, h1, h2, h3, h4⟩ := polar_entry (s := -1) (Or.inr rfl)
  have hx : R.x < 0 := by linarith
  obtain ⟨lat, e1, e2, e3⟩ := C120_wrong_hemisphere A 0 R h2 hx
  refine ⟨A, R, lat, h1, h2, hx, h4, e1, e2, ?_⟩
  have h0 : R ≠ 0 := by rintro rfl; exact lt_irrefl _ hx
  have := (entry_second_latitude h2 hx.ne).1
  rw [e1, Option.some.injEq] at this
  rw [this]
  exact arcsin_lt_zero.mpr (div_neg_of_neg_of_pos h4 (V3.norm_pos h0))

/-! ### C121: the B-plane axes in the frame of the arrival direction -/

/-- C121: in the frame whose third axis is the arrival direction, the stored `T` axis is `(0, -1, 0)`, the stored `R` axis is
`(1, 0, 0)` and the aim direction is `(cos ψ, sin ψ, 0)`, for every arrival that is not along the planet's pole: the aim
angle `ψ` is measured in the plane of the sky from `R` away from `T`. -/
theorem C121_bplane_axes (name : String) (v : V3) (rp psi : ℝ) (b : Bool) (hEI : Option ℝ) (A : Approach)
    (hA : Approach.init name v rp psi b hEI = .ok A) (hrp : 0 < rp) (hpole : A.vInfBi.x ≠ 0 ∨ A.vInfBi.y ≠ 0) :
    A.biToBiDprime A.vInfBi = ⟨0, 0, A.vInfMag⟩ ∧ 0 < A.vInfMag ∧
    A.tUnitDprime = some ⟨0, -1, 0⟩ ∧ A.rUnitDprime = some ⟨1, 0, 0⟩ ∧
    ∃ B, A.bUnit = some B ∧ A.biToBiDprime B = ⟨cos psi, sin psi, 0⟩ := by
  obtain ⟨T, R, B, hT, hR, hB, hBe, hTT, hRR, hTR, hTv, hRv⟩ := C67_bplane_angle name v rp psi b hEI A hA hrp hpole
  obtain ⟨P, hP, hAP, rfl, rfl, rfl, -⟩ := approach_init_inv hA
  have hg : 0 < A.P.GM := by rw [hAP]; exact planet_gm_pos hP
  have hv : A.vInfIcrfKms ≠ 0 := by
    intro h0
    have hm : A.vInfMag = 0 := by unfold Approach.vInfMag; rw [h0, V3.norm_eq_zero.mpr rfl, zero_mul]
    have := vInfBi_norm A
    rw [hm, V3.norm_eq_zero] at this
    rw [this] at hpole
    simp at hpole
  obtain ⟨V, e, bb, h, d, u, w, H⟩ := approach_core A hg hv hrp
  have hM := dprime_rot A
  have hVp := H.vpos
  have hMv : A.biToBiDprime A.vInfBi = ⟨0, 0, V⟩ := by
    rw [H.hvd, hM.smul, H.ddp]; ext <;> simp
  have s1 := sin_sq_add_cos_sq A.phi1
  have hk : 0 < sqrt (A.vInfBi.x ^ 2 + A.vInfBi.y ^ 2) := by
    apply sqrt_pos.mpr
    rcases hpole with h | h
    · have := sq_pos_of_ne_zero h; positivity
    · have := sq_pos_of_ne_zero h; positivity
  set k := sqrt (A.vInfBi.x ^ 2 + A.vInfBi.y ^ 2) with hkd
  have c1 : k * cos A.phi1 = A.vInfBi.x := arctan2_cos A.vInfBi.y A.vInfBi.x
  have c2 : k * sin A.phi1 = A.vInfBi.y := arctan2_sin A.vInfBi.y A.vInfBi.x
  have hT0 : V3.cross A.vInfBi ⟨0, 0, 1⟩ = k • (⟨sin A.phi1, -cos A.phi1, 0⟩ : V3) := by
    ext <;> simp only [V3.cross, V3.smul_x, V3.smul_y, V3.smul_z] <;> linarith
  have hMT0 : A.biToBiDprime ⟨sin A.phi1, -cos A.phi1, 0⟩ = ⟨0, -1, 0⟩ := by
    unfold Approach.biToBiDprime
    rw [mul_mulVec]
    ext <;> simp only [Mat3.mulVec, R2, R3, V3.dot]
    · ring
    · linear_combination (-1 : ℝ) * s1
    · ring
  have unit_image : ∀ (X n : V3) (c : ℝ), 0 < c → V3.dot n n = 1 → A.biToBiDprime X = c • n →
      (npUnit X).map A.biToBiDprime = some n := by
    intro X n c hc hn hX
    have hXX : V3.dot X X = c ^ 2 := by
      rw [← hM.dot, hX, V3.dot_smul_left, V3.dot_smul_right, hn]; ring
    have hnorm : V3.norm X = c := V3.norm_eq_of_sq hc.le hXX
    have hne : X ≠ 0 := by intro h0; rw [h0, V3.norm_eq_zero.mpr rfl] at hnorm; linarith
    rw [npUnit_some hne, Option.map_some, hM.smul, hX, hnorm, V3.smul_smul, one_div_mul_cancel hc.ne', V3.one_smul]
  have hTd : (npUnit (V3.cross A.vInfBi ⟨0, 0, 1⟩)).map A.biToBiDprime = some ⟨0, -1, 0⟩ := by
    apply unit_image _ _ k hk
    · simp [V3.dot]
    · rw [hT0, hM.smul, hMT0]
  have hRd : (npUnit (V3.cross A.vInfBi (V3.cross A.vInfBi ⟨0, 0, 1⟩))).map A.biToBiDprime = some ⟨1, 0, 0⟩ := by
    apply unit_image _ _ (V * k) (by positivity)
    · simp [V3.dot]
    · rw [hM.cross, hMv, hT0, hM.smul, hMT0]
      ext <;> simp [V3.cross]
  have hMT : A.biToBiDprime T = ⟨0, -1, 0⟩ := by
    have h1 := hT
    unfold Approach.tUnit at h1
    rw [h1, Option.map_some, Option.some.injEq] at hTd
    exact hTd
  have hMR : A.biToBiDprime R = ⟨1, 0, 0⟩ := by
    have h1 := hR
    unfold Approach.rUnit at h1
    rw [h1, Option.map_some, Option.some.injEq] at hRd
    exact hRd
  refine ⟨by rw [hMv, H.hV], by rw [← H.hV]; exact hVp, ?_, ?_, B, hB, ?_⟩
  · unfold Approach.tUnitDprime; rw [hT]; simp only [bind, Option.bind, pure]; rw [hMT]
  · unfold Approach.rUnitDprime; rw [hR]; simp only [bind, Option.bind, pure]; rw [hMR]
  · rw [hBe, hM.add, hM.smul, hM.smul, hMT, hMR]
    unfold Approach.bPlaneTheta
    rw [cos_add_pi_div_two, sin_add_pi_div_two]
    ext <;> simp

/-- Case for `C121_bplane_axes`: the concrete arrival at Earth. -/
example : ∃ A, Approach.init "EARTH" ⟨0, 10, 0⟩ 6371e3 0 true (some 120e3) = .ok A ∧
    A.tUnitDprime = some ⟨0, -1, 0⟩ ∧ A.rUnitDprime = some ⟨1, 0, 0⟩ := by
  obtain ⟨A, Hv, hA, hv, -, -, hp, -⟩ := demo_arrival
  obtain ⟨-, -, h1, h2, -⟩ := C121_bplane_axes _ _ _ _ _ _ A hA (by norm_num) hp
  exact ⟨A, hA, h1, h2⟩

end AMAT.Props
