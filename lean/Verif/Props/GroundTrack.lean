import Verif.Props.EnergyBalance
import Mathlib.Geometry.Euclidean.Angle.Unoriented.TriangleInequality
import Mathlib.Analysis.SpecialFunctions.Trigonometric.InverseDeriv

/-
C113: downrange distance and the ground track.
-/

noncomputable section

open Real

namespace AMAT.Spec

/-- Angle at the centre of the planet between two points of its surface given by longitude and latitude. -/
def centralAngle (θ₁ φ₁ θ₂ φ₂ : ℝ) : ℝ := arccos (V3.dot (up θ₁ φ₁) (up θ₂ φ₂))

/-- Rate at which the point below a moving vehicle moves over a sphere of radius 1. -/
def groundRate (θ φ : ℝ → ℝ) (t : ℝ) : ℝ := sqrt (deriv φ t ^ 2 + (cos (φ t) * deriv θ t) ^ 2)

end AMAT.Spec

namespace AMAT.Props

open Real AMAT AMAT.Spec AMAT.Data AMAT.Lits MeasureTheory Filter Topology

/-! ### Central angles -/

/-- The point of the unit sphere as a vector of Mathlib. -/
def dirVec (θ φ : ℝ) : EuclideanSpace ℝ (Fin 3) := !₂[cos φ * cos θ, cos φ * sin θ, sin φ]

theorem dirVec_inner (θ₁ φ₁ θ₂ φ₂ : ℝ) :
    inner ℝ (dirVec θ₁ φ₁) (dirVec θ₂ φ₂) = V3.dot (up θ₁ φ₁) (up θ₂ φ₂) := by
  simp [dirVec, PiLp.inner_apply, Fin.sum_univ_three, V3.dot, up]
  ring

theorem dot_self_up (θ φ : ℝ) : V3.dot (up θ φ) (up θ φ) = 1 := by
  simp only [V3.dot, up]
  have h1 := sin_sq_add_cos_sq θ
  have h2 := sin_sq_add_cos_sq φ
  calc _ = cos φ ^ 2 * (sin θ ^ 2 + cos θ ^ 2) + sin φ ^ 2 := by ring
    _ = 1 := by rw [h1]; linarith

theorem dirVec_norm (θ φ : ℝ) : ‖dirVec θ φ‖ = 1 := by
  have : ‖dirVec θ φ‖ ^ 2 = 1 := by rw [← real_inner_self_eq_norm_sq, dirVec_inner, dot_self_up]
  nlinarith [norm_nonneg (dirVec θ φ)]

theorem centralAngle_eq (θ₁ φ₁ θ₂ φ₂ : ℝ) :
    centralAngle θ₁ φ₁ θ₂ φ₂ = InnerProductGeometry.angle (dirVec θ₁ φ₁) (dirVec θ₂ φ₂) := by
  unfold centralAngle InnerProductGeometry.angle
  rw [dirVec_inner, dirVec_norm, dirVec_norm, mul_one, div_one]

theorem centralAngle_triangle (θ₁ φ₁ θ₂ φ₂ θ₃ φ₃ : ℝ) :
    centralAngle θ₁ φ₁ θ₃ φ₃ ≤ centralAngle θ₁ φ₁ θ₂ φ₂ + centralAngle θ₂ φ₂ θ₃ φ₃ := by
  simp only [centralAngle_eq]
  exact InnerProductGeometry.angle_le_angle_add_angle _ _ _

theorem centralAngle_self (θ φ : ℝ) : centralAngle θ φ θ φ = 0 := by
  unfold centralAngle
  rw [dot_self_up, arccos_one]

/-- Square of the distance between two points of the unit sphere. -/
def chordSq (θ₁ φ₁ θ₂ φ₂ : ℝ) : ℝ :=
  (cos φ₂ * cos θ₂ - cos φ₁ * cos θ₁) ^ 2 + (cos φ₂ * sin θ₂ - cos φ₁ * sin θ₁) ^ 2 + (sin φ₂ - sin φ₁) ^ 2

theorem centralAngle_chord (θ₁ φ₁ θ₂ φ₂ : ℝ) :
    centralAngle θ₁ φ₁ θ₂ φ₂ = 2 * arcsin (sqrt (chordSq θ₁ φ₁ θ₂ φ₂) / 2) := by
  have hd : V3.dot (up θ₁ φ₁) (up θ₂ φ₂) = 1 - chordSq θ₁ φ₁ θ₂ φ₂ / 2 := by
    have h1 := dot_self_up θ₁ φ₁
    have h2 := dot_self_up θ₂ φ₂
    simp only [V3.dot, up, chordSq] at *
    linarith
  have h0 : 0 ≤ centralAngle θ₁ φ₁ θ₂ φ₂ := arccos_nonneg _
  have hpi : centralAngle θ₁ φ₁ θ₂ φ₂ ≤ π := arccos_le_pi _
  have hc : cos (centralAngle θ₁ φ₁ θ₂ φ₂) = 1 - chordSq θ₁ φ₁ θ₂ φ₂ / 2 := by
    rw [centralAngle_eq, InnerProductGeometry.cos_angle, dirVec_inner, dirVec_norm, dirVec_norm, mul_one, div_one, hd]
  have hs : sin (centralAngle θ₁ φ₁ θ₂ φ₂ / 2) = sqrt (chordSq θ₁ φ₁ θ₂ φ₂) / 2 := by
    have h1 : 0 ≤ sin (centralAngle θ₁ φ₁ θ₂ φ₂ / 2) := sin_nonneg_of_nonneg_of_le_pi (by linarith) (by linarith)
    have h2 := cos_sq (centralAngle θ₁ φ₁ θ₂ φ₂ / 2)
    rw [show 2 * (centralAngle θ₁ φ₁ θ₂ φ₂ / 2) = centralAngle θ₁ φ₁ θ₂ φ₂ by ring, hc] at h2
    have h3 := sin_sq_add_cos_sq (centralAngle θ₁ φ₁ θ₂ φ₂ / 2)
    have h4 : chordSq θ₁ φ₁ θ₂ φ₂ = (2 * sin (centralAngle θ₁ φ₁ θ₂ φ₂ / 2)) ^ 2 := by linarith
    rw [h4, sqrt_sq (by linarith)]
    ring
  rw [← hs, arcsin_sin (by linarith) (by linarith)]
  ring

/-! ### Right derivatives along a flight -/

/-- A continuous function whose derivative off finitely many points is a continuous function has that derivative from the right
everywhere. -/
theorem removable_right {g h : ℝ → ℝ} {S : Finset ℝ} {a b t : ℝ} (ht : t ∈ Set.Ico a b) (hg : ContinuousOn g (Set.Icc a b))
    (hh : ContinuousOn h (Set.Icc a b)) (hd : ∀ s ∈ Set.Ioo a b, s ∉ S → HasDerivAt g (h s) s) :
    HasDerivWithinAt g (h t) (Set.Ici t) t := by
  have h1 : ((S.erase t : Finset ℝ) : Set ℝ)ᶜ ∈ 𝓝 t := (S.erase t).finite_toSet.isClosed.isOpen_compl.mem_nhds (by simp)
  obtain ⟨ε, hε, hball⟩ := Metric.mem_nhds_iff.mp h1
  set c := min (t + ε) b with hc
  have htc : t < c := lt_min (by linarith) ht.2
  have hder : ∀ s ∈ Set.Ioo t c, HasDerivAt g (h s) s := by
    intro s hs
    refine hd s ⟨ht.1.trans_lt hs.1, hs.2.trans_le (min_le_right _ _)⟩ fun hS => ?_
    have : s ∈ Metric.ball t ε := by
      rw [Metric.mem_ball, Real.dist_eq, abs_lt]
      constructor <;> linarith [hs.1, hs.2.trans_le (min_le_left (t + ε) b)]
    exact hball this (by simp [hS, hs.1.ne'])
  have hsub : Set.Ioo t c ⊆ Set.Icc a b := fun s hs => ⟨ht.1.trans hs.1.le, hs.2.le.trans (min_le_right _ _)⟩
  refine hasDerivWithinAt_Ici_of_tendsto_deriv (s := Set.Ioo t c)
    (fun s hs => (hder s hs).differentiableAt.differentiableWithinAt)
    ((hg t ⟨ht.1, ht.2.le⟩).mono hsub) (Ioo_mem_nhdsGT htc) ?_
  have h0 : Tendsto h (𝓝[>] t) (𝓝 (h t)) := by
    rw [← nhdsWithin_Ioo_eq_nhdsGT htc]
    exact (hh t ⟨ht.1, ht.2.le⟩).mono hsub
  refine h0.congr' ?_
  filter_upwards [Ioo_mem_nhdsGT htc] with s hs using (hder s hs).deriv.symm

/-- The slope of the central angle from a point of a curve is the speed of the curve on the sphere. -/
theorem centralAngle_slope {θ φ : ℝ → ℝ} {t θ' φ' : ℝ} (hθ : HasDerivWithinAt θ θ' (Set.Ici t) t)
    (hφ : HasDerivWithinAt φ φ' (Set.Ici t) t) {k : ℝ} (hk : sqrt (φ' ^ 2 + (cos (φ t) * θ') ^ 2) < k) :
    ∀ᶠ z in 𝓝[>] t, centralAngle (θ t) (φ t) (θ z) (φ z) < k * (z - t) := by
  have hi : Set.Ioi t ⊆ Set.Ici t := Set.Ioi_subset_Ici_self
  have hθ' := hθ.mono hi
  have hφ' := hφ.mono hi
  have d1 := hasDerivWithinAt_iff_tendsto_slope.mp (hφ'.cos.mul hθ'.cos)
  have d2 := hasDerivWithinAt_iff_tendsto_slope.mp (hφ'.cos.mul hθ'.sin)
  have d3 := hasDerivWithinAt_iff_tendsto_slope.mp hφ'.sin
  rw [Set.sdiff_singleton_eq_self (by simp)] at d1 d2 d3
  have lim := ((d1.pow 2).add (d2.pow 2)).add (d3.pow 2)
  have e : (-sin (φ t) * φ' * cos (θ t) + cos (φ t) * (-sin (θ t) * θ')) ^ 2 +
      (-sin (φ t) * φ' * sin (θ t) + cos (φ t) * (cos (θ t) * θ')) ^ 2 + (cos (φ t) * φ') ^ 2 =
      φ' ^ 2 + (cos (φ t) * θ') ^ 2 := by
    have h1 := sin_sq_add_cos_sq (θ t)
    have h2 := sin_sq_add_cos_sq (φ t)
    calc _ = (sin (φ t) ^ 2 * φ' ^ 2 + cos (φ t) ^ 2 * θ' ^ 2) * (sin (θ t) ^ 2 + cos (θ t) ^ 2) + cos (φ t) ^ 2 * φ' ^ 2 := by
            ring
      _ = (sin (φ t) ^ 2 + cos (φ t) ^ 2) * φ' ^ 2 + (cos (φ t) * θ') ^ 2 := by rw [h1]; ring
      _ = _ := by rw [h2, one_mul]
  rw [e] at lim
  have hk0 : 0 < k := (sqrt_nonneg _).trans_lt hk
  obtain ⟨k', hk1, hk2⟩ := exists_between hk
  have hk0' : 0 < k' := (sqrt_nonneg _).trans_lt hk1
  have hq : φ' ^ 2 + (cos (φ t) * θ') ^ 2 < k' ^ 2 := (sqrt_lt' hk0').mp hk1
  -- arcsin grows with slope 1 at 0
  have harc : ∀ᶠ u in 𝓝 (0:ℝ), 0 ≤ u → arcsin u ≤ k / k' * u := by
    have h1 : HasDerivAt arcsin 1 0 := by simpa using hasDerivAt_arcsin (x := 0) (by norm_num) (by norm_num)
    have h2 : Tendsto (slope arcsin 0) (𝓝[≠] 0) (𝓝 1) := hasDerivAt_iff_tendsto_slope.mp h1
    have h3 := h2.eventually (gt_mem_nhds (show 1 < k / k' by rwa [lt_div_iff₀ hk0', one_mul]))
    rw [eventually_nhdsWithin_iff] at h3
    filter_upwards [h3] with u hu h0
    rcases h0.eq_or_lt with rfl | h0
    · simp
    · have := hu h0.ne'
      rw [slope_def_field, arcsin_zero, sub_zero, sub_zero, div_lt_iff₀ h0] at this
      exact this.le
  have hev := lim.eventually (gt_mem_nhds hq)
  have hsmall : Tendsto (fun z => k' * (z - t) / 2) (𝓝[>] t) (𝓝 0) := by
    have : Tendsto (fun z => k' * (z - t) / 2) (𝓝 t) (𝓝 (k' * (t - t) / 2)) := by
      apply Continuous.tendsto
      fun_prop
    rw [sub_self, mul_zero, zero_div] at this
    exact this.mono_left nhdsWithin_le_nhds
  filter_upwards [hev, hsmall.eventually harc, hsmall.eventually (gt_mem_nhds one_pos), self_mem_nhdsWithin] with z hz ha hle hzt
  have hzt' : 0 < z - t := sub_pos.mpr hzt
  have hch : chordSq (θ t) (φ t) (θ z) (φ z) < (k' * (z - t)) ^ 2 := by
    simp only [slope_def_field, Pi.mul_apply] at hz
    rw [div_pow, div_pow, div_pow, ← add_div, ← add_div, div_lt_iff₀ (by positivity)] at hz
    rw [mul_pow]
    exact hz
  have hroot : sqrt (chordSq (θ t) (φ t) (θ z) (φ z)) < k' * (z - t) := (sqrt_lt' (by positivity)).mpr hch
  rw [centralAngle_chord]
  have h1 : arcsin (sqrt (chordSq (θ t) (φ t) (θ z) (φ z)) / 2) < arcsin (k' * (z - t) / 2) :=
    strictMonoOn_arcsin ⟨by linarith [sqrt_nonneg (chordSq (θ t) (φ t) (θ z) (φ z))], by linarith⟩
      ⟨by have : 0 < k' * (z - t) := by positivity
          linarith, hle.le⟩ (by linarith)
  have h2 := ha (by positivity)
  have h3 : k / k' * (k' * (z - t) / 2) = k * (z - t) / 2 := by field_simp
  linarith

/-! ### Flights -/

/-- The rates of longitude, latitude and downrange along a flight, from the right at every time. -/
theorem ground_rates {V : Vehicle} {delta : ℝ → ℝ} {y : ℝ → FState} {a b : ℝ} {S : Finset ℝ}
    (hy : SwitchedFlight (fun t s => V.EOM s t (delta t)) y a b S)
    (hreg : ∀ t ∈ Set.Icc a b, (y t).r ≠ 0 ∧ cos (y t).phi ≠ 0) {t : ℝ} (ht : t ∈ Set.Ico a b) :
    HasDerivWithinAt (fun s => (y s).theta) ((y t).v * cos (y t).gamma * cos (y t).psi / ((y t).r * cos (y t).phi))
      (Set.Ici t) t ∧
    HasDerivWithinAt (fun s => (y s).phi) ((y t).v * cos (y t).gamma * sin (y t).psi / (y t).r) (Set.Ici t) t ∧
    HasDerivWithinAt (fun s => (y s).drange) ((y t).v * cos (y t).gamma) (Set.Ici t) t := by
  have cg := continuous_cos.comp_continuousOn hy.gamma
  have cp := continuous_cos.comp_continuousOn hy.psi
  have sp := continuous_sin.comp_continuousOn hy.psi
  have cf := continuous_cos.comp_continuousOn hy.phi
  refine ⟨?_, ?_, ?_⟩
  · exact removable_right (h := fun t => (y t).v * cos (y t).gamma * cos (y t).psi / ((y t).r * cos (y t).phi)) ht hy.theta
      (((hy.v.mul cg).mul cp).div (hy.r.mul cf) fun t ht => mul_ne_zero (hreg t ht).1 (hreg t ht).2)
      fun s hs hS => (hy.solves s hs hS).theta
  · exact removable_right (h := fun t => (y t).v * cos (y t).gamma * sin (y t).psi / (y t).r) ht hy.phi
      (((hy.v.mul cg).mul sp).div hy.r fun t ht => (hreg t ht).1) fun s hs hS => (hy.solves s hs hS).phi
  · exact removable_right (h := fun t => (y t).v * cos (y t).gamma) ht hy.drange (hy.v.mul cg)
      fun s hs hS => (hy.solves s hs hS).drange

theorem ground_rate_eq {r f v ψ γ : ℝ} (hr : 0 < r) (hf : cos f ≠ 0) (hv : 0 ≤ v) (hg : 0 ≤ cos γ) :
    sqrt ((v * cos γ * sin ψ / r) ^ 2 + (cos f * (v * cos γ * cos ψ / (r * cos f))) ^ 2) = v * cos γ / r := by
  have h1 := sin_sq_add_cos_sq ψ
  have e : (v * cos γ * sin ψ / r) ^ 2 + (cos f * (v * cos γ * cos ψ / (r * cos f))) ^ 2 = (v * cos γ / r) ^ 2 := by
    have : cos f * (v * cos γ * cos ψ / (r * cos f)) = v * cos γ * cos ψ / r := by field_simp
    rw [this]
    calc _ = (v * cos γ / r) ^ 2 * (sin ψ ^ 2 + cos ψ ^ 2) := by ring
      _ = _ := by rw [h1, mul_one]
  rw [e, sqrt_sq (by positivity)]

/-- C113: on every flight above the surface that flies forward, the downrange distance covered is at least the great-circle
distance over the ground between the end points. -/
theorem C113_downrange_covers_ground (V : Vehicle) (hR : 0 < V.planet.RP) (delta : ℝ → ℝ) (y : ℝ → FState) (a b : ℝ)
    (S : Finset ℝ) (hab : a ≤ b) (hy : SwitchedFlight (fun t s => V.EOM s t (delta t)) y a b S)
    (hreg : ∀ t ∈ Set.Icc a b, 0 ≤ (y t).r * V.planet.RP - V.planet.RP ∧ cos (y t).phi ≠ 0 ∧ 0 ≤ (y t).v ∧
      0 ≤ cos (y t).gamma) :
    V.planet.RP * centralAngle (y a).theta (y a).phi (y b).theta (y b).phi ≤
      V.planet.RP * (y b).drange - V.planet.RP * (y a).drange := by
  have hr1 : ∀ t ∈ Set.Icc a b, 1 ≤ (y t).r := by
    intro t ht
    have := (hreg t ht).1
    by_contra hn
    nlinarith [not_le.mp hn]
  have hreg' : ∀ t ∈ Set.Icc a b, (y t).r ≠ 0 ∧ cos (y t).phi ≠ 0 := fun t ht =>
    ⟨by linarith [hr1 t ht], (hreg t ht).2.1⟩
  have key := image_le_of_liminf_slope_right_le_deriv_boundary
    (f := fun t => centralAngle (y a).theta (y a).phi (y t).theta (y t).phi) (B := fun t => (y t).drange - (y a).drange)
    (a := a) (b := b) (B' := fun t => (y t).v * cos (y t).gamma) ?_ (by simp [centralAngle_self])
    (hy.drange.sub continuousOn_const) (fun t ht => (ground_rates hy hreg' ht).2.2.sub_const _) ?_ ⟨hab, le_rfl⟩
  · have := mul_le_mul_of_nonneg_left key hR.le
    linarith
  · unfold centralAngle V3.dot up
    refine continuous_arccos.comp_continuousOn ?_
    have c1 := continuous_cos.comp_continuousOn hy.theta
    have c2 := continuous_sin.comp_continuousOn hy.theta
    have c3 := continuous_cos.comp_continuousOn hy.phi
    have c4 := continuous_sin.comp_continuousOn hy.phi
    exact ((continuousOn_const.mul (c3.mul c1)).add (continuousOn_const.mul (c3.mul c2))).add (continuousOn_const.mul c4)
  · intro t ht k hk
    have ht' : t ∈ Set.Icc a b := ⟨ht.1, ht.2.le⟩
    obtain ⟨-, hf, hv, hg⟩ := hreg t ht'
    obtain ⟨h1, h2, -⟩ := ground_rates hy hreg' ht
    have hlt : sqrt (((y t).v * cos (y t).gamma * sin (y t).psi / (y t).r) ^ 2 +
        (cos (y t).phi * ((y t).v * cos (y t).gamma * cos (y t).psi / ((y t).r * cos (y t).phi))) ^ 2) < k := by
      rw [ground_rate_eq (by linarith [hr1 t ht']) hf hv hg]
      refine lt_of_le_of_lt ?_ hk
      exact div_le_self (by positivity) (hr1 t ht')
    have hev := centralAngle_slope h1 h2 hlt
    refine Eventually.frequently ?_
    filter_upwards [hev, self_mem_nhdsWithin] with z hz hzt
    have hzt' : 0 < z - t := sub_pos.mpr hzt
    rw [slope_def_field, div_lt_iff₀ hzt']
    have := centralAngle_triangle (y a).theta (y a).phi (y t).theta (y t).phi (y z).theta (y z).phi
    linarith

/-- C113: the downrange distance covered is the integral of the speed over ground times the distance from the centre of the
planet: with the radius of the planet as unit of length, it lies between the length of the ground track and that length
enlarged by the greatest altitude. -/
theorem C113_downrange_at_altitude (V : Vehicle) (hR : 0 < V.planet.RP) (delta : ℝ → ℝ) (y : ℝ → FState) (a b hmin hmax : ℝ)
    (S : Finset ℝ) (hab : a ≤ b) (hy : SwitchedFlight (fun t s => V.EOM s t (delta t)) y a b S) (h0 : 0 ≤ hmin)
    (hreg : ∀ t ∈ Set.Icc a b, hmin ≤ (y t).r * V.planet.RP - V.planet.RP ∧ (y t).r * V.planet.RP - V.planet.RP ≤ hmax ∧
      cos (y t).phi ≠ 0 ∧ 0 ≤ (y t).v ∧ 0 ≤ cos (y t).gamma) :
    V.planet.RP * (y b).drange - V.planet.RP * (y a).drange =
      (∫ t in a..b, (y t).r * V.planet.RP * groundRate (fun s => (y s).theta) (fun s => (y s).phi) t) ∧
    (V.planet.RP + hmin) * (∫ t in a..b, groundRate (fun s => (y s).theta) (fun s => (y s).phi) t) ≤
      V.planet.RP * (y b).drange - V.planet.RP * (y a).drange ∧
    V.planet.RP * (y b).drange - V.planet.RP * (y a).drange ≤
      (V.planet.RP + hmax) * ∫ t in a..b, groundRate (fun s => (y s).theta) (fun s => (y s).phi) t := by
  have hr1 : ∀ t ∈ Set.Icc a b, 1 ≤ (y t).r := by
    intro t ht
    have := (hreg t ht).1
    by_contra hn
    nlinarith [not_le.mp hn]
  have hr0 : ∀ t ∈ Set.Icc a b, (y t).r ≠ 0 := fun t ht => by linarith [hr1 t ht]
  have cg := continuous_cos.comp_continuousOn hy.gamma
  have hrate : ∀ t ∈ Set.Ioo a b, t ∉ S → groundRate (fun s => (y s).theta) (fun s => (y s).phi) t =
      (y t).v * cos (y t).gamma / (y t).r := by
    intro t ht hS
    obtain ⟨-, -, hf, hv, hg⟩ := hreg t (Set.Ioo_subset_Icc_self ht)
    have hs := hy.solves t ht hS
    unfold groundRate
    rw [hs.theta.deriv, hs.phi.deriv]
    exact ground_rate_eq (by linarith [hr1 t (Set.Ioo_subset_Icc_self ht)]) hf hv hg
  have hae : ∀ᵐ t ∂(volume : Measure ℝ), t ∉ ((S ∪ {a, b} : Finset ℝ) : Set ℝ) :=
    measure_eq_zero_iff_ae_notMem.mp ((S ∪ {a, b}).finite_toSet.measure_zero _)
  have hin : ∀ t ∈ Set.uIoc a b, t ∉ ((S ∪ {a, b} : Finset ℝ) : Set ℝ) → t ∈ Set.Ioo a b ∧ t ∉ S := by
    intro t ht hn
    rw [Set.uIoc_of_le hab] at ht
    simp only [Finset.coe_union, Finset.coe_insert, Finset.coe_singleton, Set.mem_union, Finset.mem_coe, Set.mem_insert_iff,
      Set.mem_singleton_iff, not_or] at hn
    exact ⟨⟨ht.1, lt_of_le_of_ne ht.2 hn.2.2⟩, hn.1⟩
  have e1 : (∫ t in a..b, groundRate (fun s => (y s).theta) (fun s => (y s).phi) t) =
      ∫ t in a..b, (y t).v * cos (y t).gamma / (y t).r :=
    intervalIntegral.integral_congr_ae (hae.mono fun t hn ht => hrate t (hin t ht hn).1 (hin t ht hn).2)
  have e2 : (∫ t in a..b, (y t).r * V.planet.RP * groundRate (fun s => (y s).theta) (fun s => (y s).phi) t) =
      ∫ t in a..b, V.planet.RP * ((y t).v * cos (y t).gamma) := by
    refine intervalIntegral.integral_congr_ae (hae.mono fun t hn ht => ?_)
    rw [hrate t (hin t ht hn).1 (hin t ht hn).2]
    have := hr0 t (Set.Ioo_subset_Icc_self (hin t ht hn).1)
    field_simp
  have c1 : ContinuousOn (fun t => (y t).v * cos (y t).gamma) (Set.Icc a b) := hy.v.mul cg
  have c2 : ContinuousOn (fun t => (y t).v * cos (y t).gamma / (y t).r) (Set.Icc a b) := c1.div hy.r hr0
  have i1 : IntervalIntegrable (fun t => (y t).v * cos (y t).gamma) volume a b := by
    refine ContinuousOn.intervalIntegrable ?_
    rwa [Set.uIcc_of_le hab]
  have i2 : IntervalIntegrable (fun t => (y t).v * cos (y t).gamma / (y t).r) volume a b := by
    refine ContinuousOn.intervalIntegrable ?_
    rwa [Set.uIcc_of_le hab]
  have hftc := integral_eq_of_hasDerivAt_off_countable_of_le (fun s => (y s).drange) (fun t => (y t).v * cos (y t).gamma) hab
    (s := (S : Set ℝ)) S.countable_toSet hy.drange (fun t ht => (hy.solves t ht.1 ht.2).drange) i1
  have hD : V.planet.RP * (y b).drange - V.planet.RP * (y a).drange =
      ∫ t in a..b, V.planet.RP * ((y t).v * cos (y t).gamma) := by
    rw [intervalIntegral.integral_const_mul, hftc]
    ring
  have hb : ∀ t ∈ Set.Icc a b, (V.planet.RP + hmin) * ((y t).v * cos (y t).gamma / (y t).r) ≤
      V.planet.RP * ((y t).v * cos (y t).gamma) ∧
      V.planet.RP * ((y t).v * cos (y t).gamma) ≤ (V.planet.RP + hmax) * ((y t).v * cos (y t).gamma / (y t).r) := by
    intro t ht
    obtain ⟨h1, h2, -, hv, hg⟩ := hreg t ht
    have hr : 0 < (y t).r := by linarith [hr1 t ht]
    have e : V.planet.RP * ((y t).v * cos (y t).gamma) =
        (y t).r * V.planet.RP * ((y t).v * cos (y t).gamma / (y t).r) := by field_simp
    rw [e]
    exact ⟨mul_le_mul_of_nonneg_right (by linarith) (by positivity), mul_le_mul_of_nonneg_right (by linarith) (by positivity)⟩
  refine ⟨hD.trans e2.symm, ?_, ?_⟩
  · rw [e1, hD, ← intervalIntegral.integral_const_mul]
    exact intervalIntegral.integral_mono_on hab (i2.const_mul _) (i1.const_mul _) fun t ht => (hb t ht).1
  · rw [e1, hD, ← intervalIntegral.integral_const_mul]
    exact intervalIntegral.integral_mono_on hab (i1.const_mul _) (i2.const_mul _) fun t ht => (hb t ht).2

/-- C113 for the histories reported by `propogateEntry`: if the samples lie on a flight, the difference of two entries of
`drange_kmc` is at least the great-circle distance in km between the two points given by `theta_degc` and `phi_degc`. -/
theorem C113_reported_downrange (name : String) (V : Vehicle) (hP : Planet.init name = .ok V.planet) (mode : ScipyMode)
    (I : Integrator) (hI : OdeintLike I) (tSec dt deltaDeg T : ℝ) (hts : 0 ≤ tSec) (hdt : 0 < dt) (out : PropOut)
    (hrun : V.propogateEntry mode I tSec dt deltaDeg = .ok out) (y : ℝ → FState) (S : Finset ℝ)
    (hy : SwitchedFlight (fun t s => V.EOM s t (deltaDeg * π / 180.0)) y 0 T S)
    (hreg : ∀ t ∈ Set.Icc 0 T, 0 ≤ (y t).r * V.planet.RP - V.planet.RP ∧ cos (y t).phi ≠ 0 ∧ 0 ≤ (y t).v ∧
      0 ≤ cos (y t).gamma)
    (hsamp : ∀ p ∈ (samples V I tSec dt deltaDeg).take out.index, p.1 ≤ T ∧ p.2 = y p.1) (i j : ℕ) (hij : i ≤ j)
    (θi θj φi φj di dj : ℝ) (hθi : out.plotc.theta[i]? = some θi) (hθj : out.plotc.theta[j]? = some θj)
    (hφi : out.plotc.phi[i]? = some φi) (hφj : out.plotc.phi[j]? = some φj) (hdi : out.plotc.drange[i]? = some di)
    (hdj : out.plotc.drange[j]? = some dj) :
    V.planet.RP / 1000 * centralAngle (θi * π / 180) (φi * π / 180) (θj * π / 180) (φj * π / 180) ≤ dj - di := by
  obtain ⟨_, hR, _, _, _, _, _, _, _, htau, _⟩ := C01_planet_consistent name _ hP
  have hpi := pi_ne_zero
  obtain ⟨g1, g2⟩ := tGrid_get name _ hP tSec dt hts hdt
  have hpp : V.postProcess mode (TrajArrays.ofSamples (samples V I tSec dt deltaDeg)) (deltaDeg * π / 180.0) 0 = .ok out := hrun
  obtain ⟨idx, flag, qc, qr, heat, hc, -, -, -, rfl⟩ := postProcess_inv hpp
  -- what is stored at one index
  have key : ∀ {k : ℕ} {θ φ d : ℝ},
      ((V.planet.toPlotUnits (V.planet.dimensionalizeArr (TrajArrays.ofSamples (samples V I tSec dt deltaDeg)))).truncate
        idx).theta[k]? = some θ →
      ((V.planet.toPlotUnits (V.planet.dimensionalizeArr (TrajArrays.ofSamples (samples V I tSec dt deltaDeg)))).truncate
        idx).phi[k]? = some φ →
      ((V.planet.toPlotUnits (V.planet.dimensionalizeArr (TrajArrays.ofSamples (samples V I tSec dt deltaDeg)))).truncate
        idx).drange[k]? = some d →
      k * dt / V.planet.tau ∈ Set.Icc 0 T ∧ θ * π / 180 = (y (k * dt / V.planet.tau)).theta ∧
        φ * π / 180 = (y (k * dt / V.planet.tau)).phi ∧ d * 1000 = V.planet.RP * (y (k * dt / V.planet.tau)).drange := by
    intro k θ φ d h1 h2 h3
    simp only [TrajArrays.truncate, Planet.toPlotUnits, Planet.dimensionalizeArr, TrajArrays.ofSamples, ← List.map_take,
      List.map_map, List.getElem?_map, Option.map_eq_some_iff, Function.comp_apply] at h1 h2 h3
    obtain ⟨p, hp, rfl⟩ := h1
    rw [hp] at h2 h3
    obtain ⟨p', hp', rfl⟩ := h2
    obtain rfl := Option.some.inj hp'
    obtain ⟨p', hp', rfl⟩ := h3
    obtain rfl := Option.some.inj hp'
    obtain ⟨hT, he⟩ := hsamp p (List.mem_of_getElem? hp)
    have hp2 : (samples V I tSec dt deltaDeg)[k]? = some p := by
      rw [List.getElem?_take] at hp
      split at hp
      · exact hp
      · simp at hp
    have hlen : k < (Vehicle.tGrid V.planet tSec dt).length := by
      have := (List.getElem?_eq_some_iff.mp hp2).1
      have h5 := congrArg List.length (hI (fun t y => V.EOM y t (deltaDeg * π / 180.0))
        (V.planet.nonDimState (Vehicle.entryState V.planet V.init)) (Vehicle.tGrid V.planet tSec dt)).1
      rw [List.length_map] at h5
      unfold samples at this
      omega
    have htime : p.1 = k * dt / V.planet.tau := by
      have h5 := (hI (fun t y => V.EOM y t (deltaDeg * π / 180.0)) (V.planet.nonDimState (Vehicle.entryState V.planet V.init))
        (Vehicle.tGrid V.planet tSec dt)).1
      have h6 : ((samples V I tSec dt deltaDeg).map Prod.fst)[k]? = some p.1 := by rw [List.getElem?_map, hp2]; rfl
      unfold samples at h6
      rw [h5, g2 k (by rw [g1] at hlen; exact hlen)] at h6
      exact (Option.some.inj h6).symm
    rw [← htime]
    refine ⟨⟨by rw [htime]; positivity, hT⟩, ?_, ?_, ?_⟩
    · rw [he]; field_simp
    · rw [he]; field_simp
    · rw [he, show (1.0E-3:ℝ) = 1 / 1000 by norm_num]; ring
  obtain ⟨hti, e1, e2, e3⟩ := key hθi hφi hdi
  obtain ⟨htj, e4, e5, e6⟩ := key hθj hφj hdj
  have hle : (i:ℝ) * dt / V.planet.tau ≤ j * dt / V.planet.tau := by
    have : (i:ℝ) ≤ j := by exact_mod_cast hij
    gcongr
  have h := C113_downrange_covers_ground V hR (fun _ => deltaDeg * π / 180.0) y _ _ S hle (flight_mono hy hti.1 htj.2)
    fun t ht => hreg t ⟨hti.1.trans ht.1, ht.2.trans htj.2⟩
  rw [e1, e2, e4, e5]
  linarith

/-! ### Cases -/

/-- C113: the downrange distance is not the distance over the ground: on an orbit around Uranus one radius above the surface (and
on every other flight above the surface, by `C113_downrange_at_altitude`) it is larger, here by more than 5 percent. -/
theorem C113_not_ground_distance : ∃ (V : Vehicle) (y : ℝ → FState), Planet.init "URANUS" = .ok V.planet ∧
    (∀ T, SwitchedFlight (fun t s => V.EOM s t 0) y 0 T ∅) ∧ ∀ T, 0 < T →
      0 < V.planet.RP * (∫ t in (0:ℝ)..T, groundRate (fun s => (y s).theta) (fun s => (y s).phi) t) ∧
      1.05 * (V.planet.RP * ∫ t in (0:ℝ)..T, groundRate (fun s => (y s).theta) (fun s => (y s).phi) t) ≤
        V.planet.RP * (y T).drange - V.planet.RP * (y 0).drange := by
  obtain ⟨P, V, r, v, hP, rfl, hr, hv, hJ, hvac, hbal, -, hth⟩ := C65_orbit_exists
  have hs := C65_circular_orbit_is_solution V 0 r v hr hv hJ hvac hbal
  have hR : 0 < V.planet.RP := (C01_planet_consistent _ _ hP).2.1
  have hRv : V.planet.RP = 25559000 := by simp [Planet.init] at hP; rw [← hP]; norm_num [Planet.withScales]
  have hTh : V.planet.hThres = 1500000 := by simp [Planet.init] at hP; rw [← hP]; norm_num [Planet.withScales]
  have hy : ∀ T, SwitchedFlight (fun t s => V.EOM s t 0) (fun s => ⟨r, v / r * s, 0, v, 0, 0, v * s⟩) 0 T ∅ := by
    intro T
    exact ⟨by fun_prop, by fun_prop, by fun_prop, by fun_prop, by fun_prop, by fun_prop, by fun_prop, fun t _ _ => hs t⟩
  have hth' : 1500000 ≤ r * V.planet.RP - V.planet.RP := by
    unfold Planet.computeH at hth
    linarith
  refine ⟨V, _, hP, hy, fun T hT => ?_⟩
  obtain ⟨h1, h2, -⟩ := C113_downrange_at_altitude V hR (fun _ => 0) _ 0 T 1500000 (r * V.planet.RP - V.planet.RP) ∅ hT.le (hy T)
    (by norm_num) (fun t _ => ⟨hth', le_rfl, by simp, hv.le, by simp⟩)
  have hpos : 0 < ∫ t in (0:ℝ)..T, groundRate (fun s => v / r * s) (fun _ => (0:ℝ)) t := by
    have : ∀ t, groundRate (fun s => v / r * s) (fun _ => (0:ℝ)) t = v / r := by
      intro t
      unfold groundRate
      rw [show deriv (fun s => v / r * s) t = v / r by
        simp]
      simp
      rw [sqrt_sq (by positivity)]
    simp only [this, intervalIntegral.integral_const, smul_eq_mul]
    positivity
  refine ⟨mul_pos hR hpos, le_trans ?_ h2⟩
  rw [← mul_assoc]
  refine mul_le_mul_of_nonneg_right ?_ hpos.le
  rw [hRv]
  norm_num

/-- Case for `C113_downrange_covers_ground`, `C113_downrange_at_altitude` and `C113_reported_downrange`: the flight of `mars_runs`
over Mars and its samples. -/
example : ∃ (V : Vehicle) (y : ℝ → FState) (T dt : ℝ) (out : ℕ → PropOut), Planet.init "MARS" = .ok V.planet ∧ 0 < T ∧ 0 < dt ∧
    (∀ n : ℕ, V.propogateEntry .strict (traceIntegrator y) dt (dt / (n + 1 : ℕ)) 60 = .ok (out n)) ∧
    (V.planet.RP * centralAngle (y 0).theta (y 0).phi (y T).theta (y T).phi ≤
      V.planet.RP * (y T).drange - V.planet.RP * (y 0).drange) ∧
    (V.planet.RP * (y T).drange - V.planet.RP * (y 0).drange ≤
      (V.planet.RP + 100001) * ∫ t in (0:ℝ)..T, groundRate (fun s => (y s).theta) (fun s => (y s).phi) t) ∧
    ∀ (n i j : ℕ) (θi θj φi φj di dj : ℝ), i ≤ j → (out n).plotc.theta[i]? = some θi → (out n).plotc.theta[j]? = some θj →
      (out n).plotc.phi[i]? = some φi → (out n).plotc.phi[j]? = some φj → (out n).plotc.drange[i]? = some di →
      (out n).plotc.drange[j]? = some dj →
      V.planet.RP / 1000 * centralAngle (θi * π / 180) (φi * π / 180) (θj * π / 180) (φj * π / 180) ≤ dj - di := by
  obtain ⟨P, atm, y, S, dt, out, hP, hatm, hdt, hyT, hsf, hsm, hout, hidx⟩ := mars_runs false
  obtain ⟨_, hR, _, _, _, _, _, _, _, htau, _⟩ := C01_planet_consistent "MARS" P hP
  have hT : 0 < dt / P.tau := by positivity
  have hreg : ∀ t ∈ Set.Icc 0 (dt / P.tau), 0 ≤ (y t).r * P.RP - P.RP ∧ (y t).r * P.RP - P.RP ≤ 100001 ∧ cos (y t).phi ≠ 0 ∧
      0 ≤ (y t).v ∧ 0 ≤ cos (y t).gamma := by
    intro t ht
    obtain ⟨h1, h2, h3, h4, h5, h6, h7⟩ := hsf t ht
    have h0 : (0:ℝ) < 0.1 := by norm_num
    exact ⟨by linarith, h2, (h0.trans_le h5).ne', (h0.trans_le h3).le, (h0.trans_le h6).le⟩
  refine ⟨Vehicle.mk' 1000 100 0.2 10 0 1 P atm false demoCurve ⟨100, 0, 0, 4, 0, -10, 0, 0⟩, y, dt / P.tau, dt, out, hP, hT, hdt,
    hout, ?_, ?_, ?_⟩
  · exact C113_downrange_covers_ground _ hR (fun _ => 60 * π / 180.0) y 0 _ S hT.le hyT fun t ht =>
      ⟨(hreg t ht).1, (hreg t ht).2.2⟩
  · exact (C113_downrange_at_altitude _ hR (fun _ => 60 * π / 180.0) y 0 _ 0 100001 S hT.le hyT le_rfl hreg).2.2
  · intro n i j θi θj φi φj di dj hij h1 h2 h3 h4 h5 h6
    refine C113_reported_downrange "MARS" _ hP .strict (traceIntegrator y) (traceIntegrator_ok y) dt (dt / (n + 1 : ℕ)) 60
      (dt / P.tau) hdt.le (by positivity) (out n) (hout n) y S hyT (fun t ht => ⟨(hreg t ht).1, (hreg t ht).2.2⟩)
      (fun p hp => ⟨?_, (hsm n p (List.mem_of_mem_take hp)).1⟩) i j hij θi θj φi φj di dj h1 h2 h3 h4 h5 h6
    have hp' := List.mem_of_mem_take hp
    have htm : p.1 ∈ Vehicle.tGrid P dt (dt / (n + 1 : ℕ)) := by
      have h5 := (traceIntegrator_ok y (fun t s => (Vehicle.mk' 1000 100 0.2 10 0 1 P atm false demoCurve
        ⟨100, 0, 0, 4, 0, -10, 0, 0⟩).EOM s t (60 * π / 180.0)) (P.nonDimState (Vehicle.entryState P ⟨100, 0, 0, 4, 0, -10, 0, 0⟩))
        (Vehicle.tGrid P dt (dt / (n + 1 : ℕ)))).1
      rw [← h5]
      exact List.mem_map_of_mem hp'
    obtain ⟨g1, g2⟩ := tGrid_get "MARS" P hP dt (dt / (n + 1 : ℕ)) hdt.le (by positivity)
    obtain ⟨k, hk⟩ := List.mem_iff_getElem?.mp htm
    have hkl := (List.getElem?_eq_some_iff.mp hk).1
    rw [g1] at hkl
    rw [g2 k hkl] at hk
    rw [div_div_cancel₀ hdt.ne', Nat.ceil_natCast] at hkl
    rw [← Option.some.inj hk]
    refine div_le_div_of_nonneg_right ?_ htau.le
    have : (k:ℝ) ≤ (n + 1 : ℕ) := by exact_mod_cast Nat.lt_succ_iff.mp hkl
    calc (k:ℝ) * (dt / (n + 1 : ℕ)) ≤ (n + 1 : ℕ) * (dt / (n + 1 : ℕ)) := by gcongr
      _ = dt := mul_div_cancel₀ _ (by positivity)

end AMAT.Props
