import Verif.Props.FlightTime
import Verif.Props.OrbitProps
import Verif.Lemmas.Frames
import Verif.Lemmas.KeplerTime

/-
Property C146: what the orbit and the capture verdict reported at exit say about the vehicle's free motion afterwards.
-/

noncomputable section

open Real

namespace AMAT.Spec

/-- Free motion after the exit state `s`: a two-body motion that begins at the exit position with the inertial exit velocity. -/
def CoastsFrom (P : Planet) (s : Terminal) (R U : ℝ → V3) : Prop :=
  TwoBodyMotion P.GM R U ∧ R 0 = pos s.r s.theta s.phi ∧
    U 0 = vel s.theta s.phi s.v s.psi s.g + V3.cross (spin P.OMEGA) (pos s.r s.theta s.phi)

/-- Specific orbital energy of the exit state, with the inertial velocity. -/
def exitEnergy (P : Planet) (s : Terminal) : ℝ :=
  energy P.GM (pos s.r s.theta s.phi) (vel s.theta s.phi s.v s.psi s.g + V3.cross (spin P.OMEGA) (pos s.r s.theta s.phi))

/-- Specific angular momentum of the exit state, with the inertial velocity. -/
def exitAngMom (P : Planet) (s : Terminal) : ℝ :=
  angMom (pos s.r s.theta s.phi) (vel s.theta s.phi s.v s.psi s.g + V3.cross (spin P.OMEGA) (pos s.r s.theta s.phi))

end AMAT.Spec

namespace AMAT.Props

open Real AMAT AMAT.Spec AMAT.Lits

theorem distance_continuous {GM : ℝ} {R U : ℝ → V3} (h : Spec.TwoBodyMotion GM R U) : Continuous fun t => V3.norm (R t) := by
  have hx : Continuous fun t => (R t).x := continuous_iff_continuousAt.mpr fun t => (h t).1.1.continuousAt
  have hy : Continuous fun t => (R t).y := continuous_iff_continuousAt.mpr fun t => (h t).1.2.1.continuousAt
  have hz : Continuous fun t => (R t).z := continuous_iff_continuousAt.mpr fun t => (h t).1.2.2.continuousAt
  unfold V3.norm V3.dot
  exact (((hx.mul hx).add (hy.mul hy)).add (hz.mul hz)).sqrt

theorem climb_rate {GM : ℝ} {R U : ℝ → V3} (h : Spec.TwoBodyMotion GM R U) {t : ℝ} (ht : 0 < V3.norm (R t)) :
    HasDerivAt (fun s => V3.dot (R s) (U s)) (2 * energy GM (R t) (U t) + GM / V3.norm (R t)) t := by
  obtain ⟨⟨rx, ry, rz⟩, ux, uy, uz⟩ := h t
  refine (((rx.mul ux).add (ry.mul uy)).add (rz.mul uz)).congr_deriv ?_
  have h2 := V3.norm_sq (R t)
  have h3 := V3.norm_sq (U t)
  simp only [V3.smul_x, V3.smul_y, V3.smul_z]
  have e : GM / V3.norm (R t) = GM / V3.norm (R t) ^ 3 * V3.dot (R t) (R t) := by
    rw [← h2]; field_simp
  unfold energy
  rw [h3]
  have e2 : 2 * (V3.dot (U t) (U t) / 2 - GM / V3.norm (R t)) + GM / V3.norm (R t)
      = V3.dot (U t) (U t) - GM / V3.norm (R t) := by ring
  rw [e2, e]
  simp only [V3.dot]
  ring

theorem climb_continuous {GM : ℝ} {R U : ℝ → V3} (h : Spec.TwoBodyMotion GM R U) : Continuous fun t => V3.dot (R t) (U t) := by
  have hx : Continuous fun t => (R t).x := continuous_iff_continuousAt.mpr fun t => (h t).1.1.continuousAt
  have hy : Continuous fun t => (R t).y := continuous_iff_continuousAt.mpr fun t => (h t).1.2.1.continuousAt
  have hz : Continuous fun t => (R t).z := continuous_iff_continuousAt.mpr fun t => (h t).1.2.2.continuousAt
  have ux : Continuous fun t => (U t).x := continuous_iff_continuousAt.mpr fun t => (h t).2.1.continuousAt
  have uy : Continuous fun t => (U t).y := continuous_iff_continuousAt.mpr fun t => (h t).2.2.1.continuousAt
  have uz : Continuous fun t => (U t).z := continuous_iff_continuousAt.mpr fun t => (h t).2.2.2.continuousAt
  unfold V3.dot
  exact ((hx.mul ux).add (hy.mul uy)).add (hz.mul uz)

/-- Energy is conserved as long as the centre is avoided. -/
theorem coast_energy {GM : ℝ} {R U : ℝ → V3} (h : Spec.TwoBodyMotion GM R U) {T : ℝ}
    (hpos : ∀ t ∈ Set.Icc 0 T, 0 < V3.norm (R t)) : ∀ t ∈ Set.Icc 0 T, energy GM (R t) (U t) = energy GM (R 0) (U 0) := by
  intro t ht
  have := constant_of_has_deriv_right_zero (f := fun s => V3.dot (U s) (U s) / 2 - GM / V3.norm (R s)) (a := 0) (b := T)
    (fun x hx => (twoBody_rates h (hpos x hx)).2.continuousAt.continuousWithinAt)
    (fun x hx => (twoBody_rates h (hpos x ⟨hx.1, hx.2.le⟩)).2.hasDerivWithinAt) t ht
  simp only [energy, V3.norm_sq]
  exact this

theorem norm_cross_sq (a b : V3) : V3.norm (V3.cross a b) ^ 2 = V3.norm a ^ 2 * V3.norm b ^ 2 - V3.dot a b ^ 2 := by
  rw [V3.norm_sq, V3.norm_sq, V3.norm_sq]
  simp only [V3.dot, V3.cross]
  ring

/-- So is the angular momentum, in the form of the radial equation. -/
theorem coast_radial {GM : ℝ} {R U : ℝ → V3} (h : Spec.TwoBodyMotion GM R U) {T : ℝ}
    (hpos : ∀ t ∈ Set.Icc 0 T, 0 < V3.norm (R t)) : ∀ t ∈ Set.Icc 0 T,
    V3.dot (R t) (U t) ^ 2 = V3.norm (R t) ^ 2 * radialSq GM (energy GM (R 0) (U 0)) (angMom (R 0) (U 0)) (V3.norm (R t)) := by
  intro t ht
  have hE := coast_energy h hpos
  have hu : ∀ x ∈ Set.Icc 0 T, V3.norm (U x) ^ 2 = 2 * energy GM (R 0) (U 0) + 2 * (GM / V3.norm (R x)) := by
    intro x hx
    have := hE x hx
    unfold energy at this ⊢
    linarith
  set E := energy GM (R 0) (U 0) with hEd
  have hder : ∀ x ∈ Set.Icc 0 T, HasDerivAt (fun s => 2 * E * V3.norm (R s) ^ 2 + 2 * GM * V3.norm (R s)
      - V3.dot (R s) (U s) ^ 2) 0 x := by
    intro x hx
    have hp := hpos x hx
    have d1 := (twoBody_rates h hp).1
    have d2 := climb_rate h hp
    rw [hE x hx] at d2
    refine ((((d1.pow 2).const_mul (2 * E)).add (d1.const_mul (2 * GM))).sub (d2.pow 2)).congr_deriv ?_
    field_simp
    ring
  have hc := constant_of_has_deriv_right_zero (f := fun s => 2 * E * V3.norm (R s) ^ 2 + 2 * GM * V3.norm (R s)
      - V3.dot (R s) (U s) ^ 2) (a := 0) (b := T) (fun x hx => (hder x hx).continuousAt.continuousWithinAt)
    (fun x hx => (hder x ⟨hx.1, hx.2.le⟩).hasDerivWithinAt) t ht
  have h0 : (0:ℝ) ∈ Set.Icc 0 T := ⟨le_rfl, ht.1.trans ht.2⟩
  have hp0 := hpos 0 h0
  have hh : angMom (R 0) (U 0) ^ 2 = 2 * E * V3.norm (R 0) ^ 2 + 2 * GM * V3.norm (R 0) - V3.dot (R 0) (U 0) ^ 2 := by
    rw [angMom, norm_cross_sq, hu 0 h0]
    field_simp
  have hp := hpos t ht
  rw [← hc] at hh
  have e : V3.norm (R t) ^ 2 * radialSq GM E (angMom (R 0) (U 0)) (V3.norm (R t))
      = 2 * E * V3.norm (R t) ^ 2 + 2 * GM * V3.norm (R t) - angMom (R 0) (U 0) ^ 2 := by
    unfold radialSq; field_simp
  rw [e, hh]
  ring

/-- Away from the centre an unbound climbing motion climbs on. -/
theorem unbound_climbs {GM : ℝ} (hGM : 0 < GM) {R U : ℝ → V3} (h : Spec.TwoBodyMotion GM R U)
    (hE : 0 ≤ energy GM (R 0) (U 0)) (hc : 0 ≤ V3.dot (R 0) (U 0)) {T : ℝ}
    (hpos : ∀ t ∈ Set.Icc 0 T, 0 < V3.norm (R t)) :
    StrictMonoOn (fun t => V3.dot (R t) (U t)) (Set.Icc 0 T) ∧ StrictMonoOn (fun t => V3.norm (R t)) (Set.Icc 0 T) := by
  have h1 : StrictMonoOn (fun t => V3.dot (R t) (U t)) (Set.Icc 0 T) := by
    refine strictMonoOn_of_deriv_pos (convex_Icc 0 T) (climb_continuous h).continuousOn fun t ht => ?_
    rw [interior_Icc] at ht
    have ht' := Set.Ioo_subset_Icc_self ht
    have hp := hpos t ht'
    rw [(climb_rate h hp).deriv, coast_energy h hpos t ht']
    positivity
  refine ⟨h1, strictMonoOn_of_deriv_pos (convex_Icc 0 T) (distance_continuous h).continuousOn fun t ht => ?_⟩
  rw [interior_Icc] at ht
  have ht' := Set.Ioo_subset_Icc_self ht
  have hp := hpos t ht'
  rw [(twoBody_rates h hp).1.deriv]
  have : V3.dot (R 0) (U 0) < V3.dot (R t) (U t) := h1 ⟨le_rfl, ht'.1.trans ht'.2⟩ ht' ht.1
  exact div_pos (by linarith) hp

/-- An unbound climbing motion never comes near the centre. -/
theorem unbound_stays_out {GM : ℝ} (hGM : 0 < GM) {R U : ℝ → V3} (h : Spec.TwoBodyMotion GM R U)
    (h0 : 0 < V3.norm (R 0)) (hE : 0 ≤ energy GM (R 0) (U 0)) (hc : 0 ≤ V3.dot (R 0) (U 0)) (t : ℝ) (ht : 0 ≤ t) :
    0 < V3.norm (R t) := by
  by_contra hn
  set S : Set ℝ := Set.Icc 0 t ∩ (fun t => V3.norm (R t)) ⁻¹' Set.Iic (V3.norm (R 0) / 2) with hS
  have hcl : IsCompact S := isCompact_Icc.inter_right (isClosed_Iic.preimage (distance_continuous h))
  obtain ⟨x, ⟨⟨a1, a2⟩, a3⟩, hmin⟩ := hcl.exists_isLeast ⟨t, ⟨ht, le_rfl⟩, by
    change V3.norm (R t) ≤ _; linarith [not_lt.mp hn]⟩
  have a3' : V3.norm (R x) ≤ V3.norm (R 0) / 2 := a3
  have hx0 : 0 < x := lt_of_le_of_ne a1 (by rintro rfl; linarith)
  have hlow : ∀ s ∈ Set.Ico 0 x, V3.norm (R 0) / 2 < V3.norm (R s) := by
    intro s hs
    by_contra hcon
    exact absurd (hmin ⟨⟨hs.1, hs.2.le.trans a2⟩, not_lt.mp hcon⟩) (not_le.mpr hs.2)
  have hxe : V3.norm (R 0) / 2 ≤ V3.norm (R x) := by
    refine ge_of_tendsto ((distance_continuous h).continuousAt.continuousWithinAt (s := Set.Iio x) (x := x)).tendsto ?_
    filter_upwards [Ioo_mem_nhdsLT hx0] with s hs
    exact (hlow s ⟨hs.1.le, hs.2⟩).le
  have hpos : ∀ s ∈ Set.Icc 0 x, 0 < V3.norm (R s) := by
    intro s hs
    rcases hs.2.lt_or_eq with hlt | rfl
    · linarith [hlow s ⟨hs.1, hlt⟩]
    · linarith
  have := (unbound_climbs hGM h hE hc hpos).2 ⟨le_rfl, hx0.le⟩ ⟨hx0.le, le_rfl⟩ hx0
  simp only at this
  linarith

theorem exit_climb (P : Planet) (s : Terminal) {R U : ℝ → V3} (h : CoastsFrom P s R U) :
    V3.dot (R 0) (U 0) = s.r * (s.v * sin s.g) := by
  rw [h.2.1, h.2.2]
  have h1 := sin_sq_add_cos_sq s.theta
  have h2 := sin_sq_add_cos_sq s.phi
  simp only [pos, vel, along, up, horiz, east, north, spin, V3.cross, V3.dot, V3.add_x, V3.add_y, V3.add_z, V3.smul_x,
    V3.smul_y, V3.smul_z]
  linear_combination (s.r * s.v * (cos s.phi ^ 2 * sin s.g - cos s.g * sin s.psi * sin s.phi * cos s.phi)) * h1
    + (s.r * s.v * sin s.g) * h2

/-- A motion that is not descending and has non-negative energy climbs for ever and beyond every distance. -/
theorem unbound_leaves {GM : ℝ} (hGM : 0 < GM) {R U : ℝ → V3} (h : Spec.TwoBodyMotion GM R U) (h0 : 0 < V3.norm (R 0))
    (hE' : 0 ≤ energy GM (R 0) (U 0)) (hc' : 0 ≤ V3.dot (R 0) (U 0)) :
    StrictMonoOn (fun t => V3.norm (R t)) (Set.Ici 0) ∧ Filter.Tendsto (fun t => V3.norm (R t)) Filter.atTop Filter.atTop := by
  have hpos := unbound_stays_out hGM h h0 hE' hc'
  have hmono : StrictMonoOn (fun t => V3.norm (R t)) (Set.Ici 0) := by
    intro x hx y hy hxy
    exact (unbound_climbs hGM h hE' hc' (T := y) fun t ht => hpos t ht.1).2 ⟨hx, hxy.le⟩ ⟨hy, le_rfl⟩ hxy
  refine ⟨hmono, ?_⟩
  rw [Filter.tendsto_atTop]
  intro M
  -- below `M` the product of distance and climb rate grows at a constant rate
  by_contra hn
  have hall : ∀ t, 0 ≤ t → V3.norm (R t) < M := by
    intro t ht
    by_contra hcon
    refine hn ?_
    filter_upwards [Filter.eventually_ge_atTop t] with x hx
    exact (not_lt.mp hcon).trans (hmono.monotoneOn ht (ht.trans hx) hx)
  have hM : 0 < M := (h0.trans (hall 0 le_rfl))
  set k := GM / M with hk
  have hk0 : 0 < k := by positivity
  have g1 : ∀ t, 0 ≤ t → k * t ≤ V3.dot (R t) (U t) := by
    intro t ht
    have hm : MonotoneOn (fun s => V3.dot (R s) (U s) - k * s) (Set.Icc 0 t) := by
      refine monotoneOn_of_deriv_nonneg (convex_Icc 0 t) (((climb_continuous h).sub (by fun_prop)).continuousOn)
        (fun x hx => ?_) fun x hx => ?_
      all_goals
        rw [interior_Icc] at hx
        have d := (climb_rate h (hpos x hx.1.le)).sub ((hasDerivAt_id x).const_mul k)
      · exact d.differentiableAt.differentiableWithinAt
      · have := d.deriv
        change deriv (fun s => V3.dot (R s) (U s) - k * s) x = _ at this
        rw [this, coast_energy h (T := x) (fun t ht => hpos t ht.1) x ⟨hx.1.le, le_rfl⟩]
        have : k ≤ GM / V3.norm (R x) := div_le_div_of_nonneg_left hGM.le (hpos x hx.1.le) (hall x hx.1.le).le
        linarith
    have := hm ⟨le_rfl, ht⟩ ⟨ht, le_rfl⟩ ht
    simp only at this
    linarith
  have g2 : ∀ t, 0 ≤ t → k * t ^ 2 ≤ V3.norm (R t) ^ 2 := by
    intro t ht
    have hm : MonotoneOn (fun s => V3.norm (R s) ^ 2 - k * s ^ 2) (Set.Icc 0 t) := by
      refine monotoneOn_of_deriv_nonneg (convex_Icc 0 t) ((((distance_continuous h).pow 2).sub (by fun_prop)).continuousOn)
        (fun x hx => ?_) fun x hx => ?_
      all_goals
        rw [interior_Icc] at hx
        have d := ((twoBody_rates h (hpos x hx.1.le)).1.pow 2).sub (((hasDerivAt_id x).pow 2).const_mul k)
      · exact d.differentiableAt.differentiableWithinAt
      · have := d.deriv
        change deriv (fun s => V3.norm (R s) ^ 2 - k * s ^ 2) x = _ at this
        rw [this]
        have hp := hpos x hx.1.le
        have := g1 x hx.1.le
        have e : ((2:ℕ):ℝ) * V3.norm (R x) ^ (2 - 1) * (V3.dot (R x) (U x) / V3.norm (R x)) = 2 * V3.dot (R x) (U x) := by
          norm_num; field_simp
        rw [e]
        norm_num
        linarith
    have := hm ⟨le_rfl, ht⟩ ⟨ht, le_rfl⟩ ht
    simp only at this
    have := sq_nonneg (V3.norm (R 0))
    linarith
  have h3 := g2 (M / √k) (by positivity)
  have h4 := hall (M / √k) (by positivity)
  have h5 := hpos (M / √k) (by positivity)
  rw [div_pow, sq_sqrt hk0.le] at h3
  have : k * (M ^ 2 / k) = M ^ 2 := by field_simp
  rw [this] at h3
  nlinarith

/-- C146: a vehicle that is not descending at its exit and has non-negative orbital energy there climbs for ever and beyond
every distance. -/
theorem C146_unbound_leaves (name : String) (P : Planet) (hP : Planet.init name = .ok P) (s : Terminal) (hr : 0 < s.r)
    (hE : 0 ≤ exitEnergy P s) (hc : 0 ≤ s.v * sin s.g) (R U : ℝ → V3) (h : CoastsFrom P s R U) :
    StrictMonoOn (fun t => V3.norm (R t)) (Set.Ici 0) ∧ Filter.Tendsto (fun t => V3.norm (R t)) Filter.atTop Filter.atTop := by
  obtain ⟨_, _, hGM, _⟩ := C01_planet_consistent name P hP
  exact unbound_leaves hGM h.1 (by rw [h.2.1, norm_pos_r hr]; exact hr) (by rw [h.2.1, h.2.2]; exact hE)
    (by rw [exit_climb P s h]; positivity)

/-- A climbing motion with negative energy that stays within the distance `M` stops climbing in the time `π M / √(-2 E)`. -/
theorem climb_ends {GM : ℝ} {R U : ℝ → V3} (h : Spec.TwoBodyMotion GM R U) {T M : ℝ} (hT : 0 ≤ T)
    (hE : energy GM (R 0) (U 0) < 0) (hpos : ∀ t ∈ Set.Icc 0 T, 0 < V3.norm (R t) ∧ V3.norm (R t) ≤ M)
    (hc : ∀ t ∈ Set.Icc 0 T, 0 < V3.dot (R t) (U t)) : T < π * M / √(-2 * energy GM (R 0) (U 0)) := by
  have hen := coast_energy h fun t ht => (hpos t ht).1
  set E := energy GM (R 0) (U 0) with hEd
  set w := √(-2 * E) with hw
  have hw0 : 0 < w := sqrt_pos.mpr (by linarith)
  have hw2 : w ^ 2 = -2 * E := sq_sqrt (by linarith)
  have hM : 0 < M := by
    have := hpos 0 ⟨le_rfl, hT⟩
    linarith [this.1, this.2]
  have hd : ∀ x ∈ Set.Icc 0 T, HasDerivAt (fun s => arctan ((GM - w ^ 2 * V3.norm (R s)) / (w * V3.dot (R s) (U s))))
      (-(w / V3.norm (R x))) x := by
    intro x hx
    have hp := (hpos x hx).1
    have hcx := hc x hx
    have d1 := (twoBody_rates h hp).1
    have d2 := climb_rate h hp
    rw [hen x hx] at d2
    refine ((((d1.const_mul (w ^ 2)).const_sub GM).fun_div (d2.const_mul w) (by positivity)).arctan).congr_deriv ?_
    have hE2 : E = -(w ^ 2) / 2 := by linarith
    have hne : 1 + ((GM - w ^ 2 * V3.norm (R x)) / (w * V3.dot (R x) (U x))) ^ 2 ≠ 0 := by positivity
    rw [hE2, div_mul_eq_mul_div, one_mul, div_eq_iff hne]
    field_simp
    ring
  have hanti : AntitoneOn (fun s => arctan ((GM - w ^ 2 * V3.norm (R s)) / (w * V3.dot (R s) (U s))) + w / M * s)
      (Set.Icc 0 T) := by
    have hD : ∀ x ∈ Set.Icc 0 T, HasDerivAt
        (fun s => arctan ((GM - w ^ 2 * V3.norm (R s)) / (w * V3.dot (R s) (U s))) + w / M * s)
        (-(w / V3.norm (R x)) + w / M * 1) x := fun x hx => (hd x hx).add ((hasDerivAt_id x).const_mul (w / M))
    refine antitoneOn_of_deriv_nonpos (convex_Icc 0 T) (fun x hx => (hD x hx).continuousAt.continuousWithinAt)
      (fun x hx => ?_) fun x hx => ?_
    all_goals
      rw [interior_Icc] at hx
      have hx' := Set.Ioo_subset_Icc_self hx
    · exact (hD x hx').differentiableAt.differentiableWithinAt
    · rw [(hD x hx').deriv]
      have := div_le_div_of_nonneg_left hw0.le (hpos x hx').1 (hpos x hx').2
      linarith
  have h1 := hanti ⟨le_rfl, hT⟩ ⟨hT, le_rfl⟩ hT
  simp only at h1
  have h2 := neg_pi_div_two_lt_arctan ((GM - w ^ 2 * V3.norm (R T)) / (w * V3.dot (R T) (U T)))
  have h3 := arctan_lt_pi_div_two ((GM - w ^ 2 * V3.norm (R 0)) / (w * V3.dot (R 0) (U 0)))
  have h4 : w / M * T < π := by linarith
  rw [lt_div_iff₀ hw0]
  rw [div_mul_eq_mul_div, div_lt_iff₀ hM] at h4
  linarith

/-- A bound motion that is not radial does not meet the centre. -/
theorem bound_stays_out {GM : ℝ} (hGM : 0 < GM) {R U : ℝ → V3} (h : Spec.TwoBodyMotion GM R U) (h0 : 0 < V3.norm (R 0))
    (hE : energy GM (R 0) (U 0) < 0) (hh : 0 < angMom (R 0) (U 0)) : ∀ t, 0 ≤ t → 0 < V3.norm (R t) := by
  set m := min (V3.norm (R 0)) (angMom (R 0) (U 0) ^ 2 / (2 * GM)) with hm
  have hm0 : 0 < m := lt_min h0 (by positivity)
  by_contra hn
  push Not at hn
  obtain ⟨t, ht, hle⟩ := hn
  -- the first time at which the distance is half the bound
  have hc := distance_continuous h
  have hcl : IsCompact (Set.Icc 0 t ∩ (fun t => V3.norm (R t)) ⁻¹' Set.Iic (m / 2)) :=
    isCompact_Icc.inter_right (isClosed_Iic.preimage hc)
  obtain ⟨x, ⟨⟨x0, x1⟩, x2⟩, hmin⟩ := hcl.exists_isLeast
    ⟨t, ⟨ht, le_rfl⟩, show V3.norm (R t) ≤ m / 2 by linarith⟩
  have x2' : V3.norm (R x) ≤ m / 2 := x2
  have hx0 : 0 < x := lt_of_le_of_ne x0 (by
    rintro rfl
    have := min_le_left (V3.norm (R 0)) (angMom (R 0) (U 0) ^ 2 / (2 * GM))
    linarith)
  have hbefore : ∀ y ∈ Set.Ico 0 x, m / 2 < V3.norm (R y) := by
    intro y hy
    by_contra hcon
    exact absurd (hmin ⟨⟨hy.1, hy.2.le.trans x1⟩, not_lt.mp hcon⟩) (not_le.mpr hy.2)
  have hxm : m / 2 ≤ V3.norm (R x) := by
    refine ge_of_tendsto (hc.continuousAt.continuousWithinAt (s := Set.Iio x) (x := x)).tendsto ?_
    filter_upwards [Ioo_mem_nhdsLT hx0] with y hy
    exact (hbefore y ⟨hy.1.le, hy.2⟩).le
  have hpos : ∀ y ∈ Set.Icc 0 x, 0 < V3.norm (R y) := by
    intro y hy
    rcases lt_or_eq_of_le hy.2 with h1 | rfl
    · linarith [hbefore y ⟨hy.1, h1⟩]
    · linarith
  have h1 := coast_radial h hpos x ⟨hx0.le, le_rfl⟩
  have hp := hpos x ⟨hx0.le, le_rfl⟩
  have e : V3.norm (R x) ^ 2 * radialSq GM (energy GM (R 0) (U 0)) (angMom (R 0) (U 0)) (V3.norm (R x))
      = 2 * energy GM (R 0) (U 0) * V3.norm (R x) ^ 2 + 2 * GM * V3.norm (R x) - angMom (R 0) (U 0) ^ 2 := by
    unfold radialSq; field_simp
  rw [e] at h1
  have h2 := sq_nonneg (V3.dot (R x) (U x))
  have h3 : 2 * energy GM (R 0) (U 0) * V3.norm (R x) ^ 2 < 0 := mul_neg_of_neg_of_pos (by linarith) (by positivity)
  have h4 : angMom (R 0) (U 0) ^ 2 / (2 * GM) < V3.norm (R x) := by
    rw [div_lt_iff₀ (by positivity)]; linarith
  have h5 := min_le_right (V3.norm (R 0)) (angMom (R 0) (U 0) ^ 2 / (2 * GM))
  linarith

/-- The proof of C146 for bound exits, with the orbit given by semi-major axis and eccentricity. -/
theorem bound_core (P : Planet) (hGM : 0 < P.GM) (s : Terminal) (hr : 0 < s.r)
    (hE : exitEnergy P s < 0) (hU : s.vIe P ≠ 0) (R U : ℝ → V3) (h : CoastsFrom P s R U)
    (hpos : ∀ t, 0 ≤ t → 0 < V3.norm (R t)) :
    ∃ a e, a = -P.GM / (2 * exitEnergy P s) ∧ 0 ≤ e ∧
      e ^ 2 = 1 + 2 * exitEnergy P s * angMom s.rVec (s.vIe P) ^ 2 / P.GM ^ 2 ∧
      s.apoapsisAltitudeKm P = some ((a * (1 + e) - P.RP) / 1000) ∧
      s.periapsisAltitudeKm P = some ((a * (1 - e) - P.RP) / 1000) ∧
      (∀ t, 0 ≤ t → a * (1 - e) ≤ V3.norm (R t) ∧ V3.norm (R t) ≤ a * (1 + e)) ∧
      (0 < s.v * sin s.g → ∃ t, 0 < t ∧ t ≤ π * (a * (1 + e)) / √(-2 * exitEnergy P s) ∧
        V3.norm (R t) = a * (1 + e) ∧ V3.dot (R t) (U t) = 0 ∧
        StrictMonoOn (fun t => V3.norm (R t)) (Set.Icc 0 t)) := by
  have hE0 : energy P.GM (R 0) (U 0) = exitEnergy P s := by rw [h.2.1, h.2.2]; rfl
  have hEe0 : energy P.GM s.rVec (s.vIe P) = exitEnergy P s := by rw [vIe_eq, rVec_eq]; rfl
  have hang : angMom (R 0) (U 0) = angMom s.rVec (s.vIe P) := by rw [h.2.1, h.2.2, vIe_eq, rVec_eq]
  have hn0 : V3.norm (R 0) = s.r := by rw [h.2.1, norm_pos_r hr]
  obtain ⟨g, e, hg, he0, he2, hEe, hh, _, hel⟩ := elements_eq P s hGM hr hU
  rw [hEe0] at he2 hEe hel
  set E := exitEnergy P s with hEd
  set hm := angMom s.rVec (s.vIe P) with hhd
  have hsm : P.semiMajorAxisScalar E = some (-P.GM / (2 * E)) := by
    unfold Planet.semiMajorAxisScalar; rw [if_neg hE.ne, Lits.l10]; congr 1; ring
  rw [hsm] at hel
  set a := -P.GM / (2 * E) with ha
  have ha0 : 0 < a := div_pos_of_neg_of_neg (by linarith) (by linarith)
  have l3 : (1.0E3:ℝ) = 1000 := by norm_num
  refine ⟨a, e, ha, he0, he2, ?_, ?_, ?_⟩
  · unfold Terminal.apoapsisAltitudeKm
    rw [hel, l3, Lits.l10]; rfl
  · unfold Terminal.periapsisAltitudeKm
    rw [hel, l3, Lits.l10]; rfl
  have hrad : ∀ t, 0 ≤ t → V3.dot (R t) (U t) ^ 2
      = 2 * E * ((V3.norm (R t) - a * (1 - e)) * (V3.norm (R t) - a * (1 + e))) := by
    intro t ht
    rw [coast_radial h.1 (T := t) (fun x hx => hpos x hx.1) t ⟨ht, le_rfl⟩, hE0, hang]
    exact radialSq_factor hGM hE.ne ha he2 (hpos t ht).ne'
  have hae : 0 ≤ a * e := mul_nonneg ha0.le he0
  have hbetween : ∀ t, 0 ≤ t → a * (1 - e) ≤ V3.norm (R t) ∧ V3.norm (R t) ≤ a * (1 + e) := by
    intro t ht
    have h1 := hrad t ht
    have h2 := sq_nonneg (V3.dot (R t) (U t))
    have h3 : (V3.norm (R t) - a * (1 - e)) * (V3.norm (R t) - a * (1 + e)) ≤ 0 := by
      by_contra hcon
      have := mul_neg_of_neg_of_pos (show 2 * E < 0 by linarith) (not_le.mp hcon)
      linarith
    constructor <;> nlinarith
  refine ⟨hbetween, fun hclimb => ?_⟩
  have hc0 : 0 < V3.dot (R 0) (U 0) := by rw [exit_climb P s h]; positivity
  set T := π * (a * (1 + e)) / √(-2 * E) with hTd
  have hT0 : 0 ≤ T := by
    have : 0 ≤ a * (1 + e) := by nlinarith
    positivity
  have hex : ∃ t ∈ Set.Icc 0 T, V3.dot (R t) (U t) ≤ 0 := by
    by_contra hn
    push Not at hn
    have := climb_ends h.1 (T := T) (M := a * (1 + e)) hT0 (by rw [hE0]; exact hE)
      (fun t ht => ⟨hpos t ht.1, (hbetween t ht.1).2⟩) hn
    rw [hE0] at this
    exact lt_irrefl _ this
  set S : Set ℝ := Set.Icc 0 T ∩ (fun t => V3.dot (R t) (U t)) ⁻¹' Set.Iic 0 with hS
  have hcl : IsCompact S := isCompact_Icc.inter_right (isClosed_Iic.preimage (climb_continuous h.1))
  obtain ⟨t', ht', ht''⟩ := hex
  obtain ⟨x, ⟨⟨a1, a2⟩, a3⟩, hmin⟩ := hcl.exists_isLeast ⟨t', ht', ht''⟩
  have a3' : V3.dot (R x) (U x) ≤ 0 := a3
  have hx0 : 0 < x := lt_of_le_of_ne a1 (by rintro rfl; linarith)
  have hup : ∀ y ∈ Set.Ico 0 x, 0 < V3.dot (R y) (U y) := by
    intro y hy
    by_contra hcon
    exact absurd (hmin ⟨⟨hy.1, hy.2.le.trans a2⟩, not_lt.mp hcon⟩) (not_le.mpr hy.2)
  have hx1 : 0 ≤ V3.dot (R x) (U x) := by
    refine ge_of_tendsto ((climb_continuous h.1).continuousAt.continuousWithinAt (s := Set.Iio x) (x := x)).tendsto ?_
    filter_upwards [Ioo_mem_nhdsLT hx0] with y hy
    exact (hup y ⟨hy.1.le, hy.2⟩).le
  have hzero : V3.dot (R x) (U x) = 0 := le_antisymm a3' hx1
  have hmono : StrictMonoOn (fun t => V3.norm (R t)) (Set.Icc 0 x) := by
    refine strictMonoOn_of_deriv_pos (convex_Icc 0 x) (distance_continuous h.1).continuousOn fun y hy => ?_
    rw [interior_Icc] at hy
    rw [(twoBody_rates h.1 (hpos y hy.1.le)).1.deriv]
    exact div_pos (hup y ⟨hy.1.le, hy.2⟩) (hpos y hy.1.le)
  refine ⟨x, hx0, a2, ?_, hzero, hmono⟩
  have h1 := hrad x hx0.le
  rw [hzero] at h1
  have h2 : (V3.norm (R x) - a * (1 - e)) * (V3.norm (R x) - a * (1 + e)) = 0 := by
    rcases mul_eq_zero.mp (show 2 * E * ((V3.norm (R x) - a * (1 - e)) * (V3.norm (R x) - a * (1 + e))) = 0 by
      rw [← h1]; norm_num) with h3 | h3
    · exfalso; linarith
    · exact h3
  rcases mul_eq_zero.mp h2 with h3 | h3
  · exfalso
    have h4 := hmono ⟨le_rfl, hx0.le⟩ ⟨hx0.le, le_rfl⟩ hx0
    simp only at h4
    have := (hbetween 0 le_rfl).1
    linarith
  · linarith

/-- C146: a vehicle with negative orbital energy at its exit, not moving radially, stays between the reported periapsis and
the reported apoapsis; if it is climbing it climbs to the reported apoapsis, in a bounded time. -/
theorem C146_bound_stays (name : String) (P : Planet) (hP : Planet.init name = .ok P) (s : Terminal) (hr : 0 < s.r)
    (hE : exitEnergy P s < 0) (hh : 0 < exitAngMom P s) (R U : ℝ → V3) (h : CoastsFrom P s R U) :
    ∃ A B, s.apoapsisAltitudeKm P = some A ∧ s.periapsisAltitudeKm P = some B ∧ 0 < P.RP + 1000 * B ∧
      exitEnergy P s = -P.GM / (P.RP + 1000 * B + (P.RP + 1000 * A)) ∧
      (∀ t, 0 ≤ t → P.RP + 1000 * B ≤ V3.norm (R t) ∧ V3.norm (R t) ≤ P.RP + 1000 * A) ∧
      (0 < s.v * sin s.g → ∃ t, 0 < t ∧ t ≤ π * (P.RP + 1000 * A) / √(-2 * exitEnergy P s) ∧
        V3.norm (R t) = P.RP + 1000 * A ∧ V3.dot (R t) (U t) = 0 ∧
        StrictMonoOn (fun t => V3.norm (R t)) (Set.Icc 0 t)) := by
  obtain ⟨_, _, hGM, _⟩ := C01_planet_consistent name P hP
  have hU : s.vIe P ≠ 0 := by
    intro h0
    rw [vIe_eq] at h0
    have h1 : V3.norm (V3.cross (pos s.r s.theta s.phi)
      (vel s.theta s.phi s.v s.psi s.g + V3.cross (spin P.OMEGA) (pos s.r s.theta s.phi))) = 0 := by
      rw [h0]
      apply V3.norm_eq_zero.mpr
      ext <;> simp [V3.cross]
    exact hh.ne' h1
  have hpos := bound_stays_out hGM h.1 (by rw [h.2.1, norm_pos_r hr]; exact hr) (by rw [h.2.1, h.2.2]; exact hE)
    (by rw [h.2.1, h.2.2]; exact hh)
  obtain ⟨a, e, ha, he0, he2, ha1, ha2, h1, h2⟩ := bound_core P hGM s hr hE hU R U h hpos
  have ha0 : 0 < a := by rw [ha]; exact div_pos_of_neg_of_neg (by linarith) (by linarith)
  have e1 : P.RP + 1000 * ((a * (1 + e) - P.RP) / 1000) = a * (1 + e) := by ring
  have e2 : P.RP + 1000 * ((a * (1 - e) - P.RP) / 1000) = a * (1 - e) := by ring
  refine ⟨_, _, ha1, ha2, ?_, ?_, ?_⟩
  · rw [e2]
    refine mul_pos ha0 ?_
    have h3 : 0 < -(2 * exitEnergy P s * angMom s.rVec (s.vIe P) ^ 2 / P.GM ^ 2) := by
      have h4 : 0 < angMom s.rVec (s.vIe P) := by rw [vIe_eq, rVec_eq]; exact hh
      have h5 : 2 * exitEnergy P s * angMom s.rVec (s.vIe P) ^ 2 < 0 :=
        mul_neg_of_neg_of_pos (by linarith) (by positivity)
      rw [← neg_div]
      exact div_pos (by linarith) (by positivity)
    have h4 : e ^ 2 < 1 := by rw [he2]; linarith
    have : e < 1 := by
      by_contra hc
      have := mul_self_le_mul_self zero_le_one (not_lt.mp hc)
      nlinarith
    linarith
  · rw [e1, e2, show a * (1 - e) + a * (1 + e) = 2 * a by ring, eq_div_iff (by positivity), ha]
    have := hE.ne
    field_simp
  · rw [e1, e2]
    exact ⟨h1, h2⟩

/-- The inertial energy of an exit state in terms of the state relative to the planet. -/
theorem exitEnergy_eq (P : Planet) (s : Terminal) (hr : 0 < s.r) : exitEnergy P s = s.v ^ 2 / 2 - P.GM / s.r
    + P.OMEGA * s.r * cos s.phi * (s.v * cos s.g * cos s.psi + P.OMEGA * s.r * cos s.phi / 2) := by
  unfold exitEnergy energy
  rw [norm_pos_r hr, V3.norm_sq]
  have k1 := sin_sq_add_cos_sq s.theta
  have b1 : ∀ X Y : V3, V3.dot (X + Y) (X + Y) = V3.dot X X + 2 * V3.dot X Y + V3.dot Y Y := by
    intro X Y
    simp only [V3.dot, V3.add_x, V3.add_y, V3.add_z]; ring
  have b2 : V3.dot (vel s.theta s.phi s.v s.psi s.g) (vel s.theta s.phi s.v s.psi s.g) = s.v ^ 2 := by
    have k := (Frames.triad_orthonormal s.theta s.phi s.psi s.g).1
    have e : ∀ (c : ℝ) (X : V3), V3.dot (c • X) (c • X) = c ^ 2 * V3.dot X X := by
      intro c X
      simp only [V3.dot, V3.smul_x, V3.smul_y, V3.smul_z]; ring
    rw [vel, e, k, mul_one]
  have b3 : V3.dot (vel s.theta s.phi s.v s.psi s.g) (V3.cross (spin P.OMEGA) (pos s.r s.theta s.phi))
      = P.OMEGA * s.r * cos s.phi * (s.v * cos s.g * cos s.psi) := by
    simp only [pos, vel, along, up, horiz, east, north, spin, V3.cross, V3.dot, V3.add_x, V3.add_y, V3.add_z, V3.smul_x,
      V3.smul_y, V3.smul_z]
    linear_combination (P.OMEGA * s.r * cos s.phi * (s.v * cos s.g * cos s.psi)) * k1
  have b4 : V3.dot (V3.cross (spin P.OMEGA) (pos s.r s.theta s.phi))
      (V3.cross (spin P.OMEGA) (pos s.r s.theta s.phi)) = (P.OMEGA * s.r * cos s.phi) ^ 2 := by
    simp only [pos, up, spin, V3.cross, V3.dot, V3.smul_x, V3.smul_y, V3.smul_z]
    linear_combination ((P.OMEGA * s.r * cos s.phi) ^ 2) * k1
  rw [b1, b2, b3, b4]
  ring

/-- C146, what holds of `isCaptured`, which uses the speed relative to the planet.  Full claim: -1 means that the vehicle stays
bound, 1 that it does not.  The verdict 1 is right for vehicles that are not slower in inertial space than relative to the
planet, and -1 for those that are not faster; and -1 is given exactly if the energy is negative with the relative speed. -/
theorem C146_verdict_partial (name : String) (V : Vehicle) (hP : Planet.init name = .ok V.planet) (mode : ScipyMode)
    (I : Integrator) (tSec dt deltaDeg : ℝ) (out : PropOut) (h : V.propogateEntry mode I tSec dt deltaDeg = .ok out) :
    ∃ s ans, Spec.IsLast out s ∧ 0 < s.r ∧ V.isCaptured mode I tSec dt deltaDeg = .ok ans ∧ (ans = -1 ∨ ans = 1) ∧
      (ans = -1 ↔ s.v ^ 2 / 2 - V.planet.GM / s.r < 0) ∧
      exitEnergy V.planet s = s.v ^ 2 / 2 - V.planet.GM / s.r
        + V.planet.OMEGA * s.r * cos s.phi * (s.v * cos s.g * cos s.psi + V.planet.OMEGA * s.r * cos s.phi / 2) ∧
      (ans = -1 → V.planet.OMEGA * cos s.phi * (s.v * cos s.g * cos s.psi + V.planet.OMEGA * s.r * cos s.phi / 2) ≤ 0 →
        exitEnergy V.planet s < 0) ∧
      (ans = 1 → 0 ≤ V.planet.OMEGA * cos s.phi * (s.v * cos s.g * cos s.psi + V.planet.OMEGA * s.r * cos s.phi / 2) →
        0 ≤ exitEnergy V.planet s) := by
  obtain ⟨s, ht, hs⟩ := terminal_isLast (C24_arrays_aligned V mode I tSec dt deltaDeg out h)
  have hr := last_above_ground name V hP h s hs
  obtain ⟨r, v, h1, h2, h3, h4⟩ := (C30_capture_verdict V mode I tSec dt deltaDeg).1 out h
  obtain rfl : r = s.r := Option.some.inj (h1.symm.trans hs.1)
  obtain rfl : v = s.v := Option.some.inj (h2.symm.trans hs.2.1)
  have hE := exitEnergy_eq V.planet s hr
  have hfac : V.planet.OMEGA * s.r * cos s.phi * (s.v * cos s.g * cos s.psi + V.planet.OMEGA * s.r * cos s.phi / 2)
      = s.r * (V.planet.OMEGA * cos s.phi * (s.v * cos s.g * cos s.psi + V.planet.OMEGA * s.r * cos s.phi / 2)) := by ring
  rcases lt_or_ge (s.v ^ 2 / 2 - V.planet.GM / s.r) 0 with hneg | hnn
  · refine ⟨s, -1, hs, hr, h3 hneg, Or.inl rfl, ⟨fun _ => hneg, fun _ => rfl⟩, hE, fun _ hx => ?_, fun hx => absurd hx (by norm_num)⟩
    have := mul_nonpos_of_nonneg_of_nonpos hr.le hx
    rw [hE, hfac]
    linarith
  · refine ⟨s, 1, hs, hr, h4 hnn, Or.inr rfl,
      ⟨fun hx => absurd hx (by norm_num), fun hx => absurd hx (not_lt.mpr hnn)⟩, hE, fun hx => absurd hx (by norm_num), fun _ hx => ?_⟩
    have := mul_nonneg hr.le hx
    rw [hE, hfac]
    linarith

/-- Every hyperbolic state that is not radial starts a two-body motion. -/
theorem hyperbolic_motion {GM : ℝ} (hGM : 0 < GM) (R0 U0 : V3) (hr : 0 < V3.norm R0) (hE : 0 < energy GM R0 U0)
    (hh : 0 < angMom R0 U0) : ∃ R U, Spec.TwoBodyMotion GM R U ∧ R 0 = R0 ∧ U 0 = U0 := by
  set a := GM / (2 * energy GM R0 U0) with ha
  have ha0 : 0 < a := by positivity
  set n := √(GM / a ^ 3) with hn
  have hn0 : 0 < n := sqrt_pos.mpr (by positivity)
  have hn2 : n ^ 2 = GM / a ^ 3 := sq_sqrt (by positivity)
  have hG : n ^ 2 * a ^ 3 = GM := by rw [hn2]; field_simp
  have hEa : energy GM R0 U0 = GM / (2 * a) := by rw [ha]; field_simp
  have hUU : V3.dot U0 U0 = n ^ 2 * a ^ 2 * (2 / (V3.norm R0 / a) + 1) := by
    rw [← V3.norm_sq]
    have h1 : V3.norm U0 ^ 2 = 2 * (GM / (2 * a)) + 2 * (GM / V3.norm R0) := by
      rw [← hEa]; unfold energy; ring
    rw [h1, hn2]
    field_simp
    ring
  have hRV : V3.dot R0 U0 = n * a ^ 2 * (V3.dot R0 U0 / (n * a ^ 2)) := by field_simp
  have hcond : 1 < (1 + V3.norm R0 / a) ^ 2 - (V3.dot R0 U0 / (n * a ^ 2)) ^ 2 := by
    have h1 := norm_cross_sq R0 U0
    rw [V3.norm_sq U0, hUU] at h1
    have h2 : (1 + V3.norm R0 / a) ^ 2 - (V3.dot R0 U0 / (n * a ^ 2)) ^ 2 - 1 = angMom R0 U0 ^ 2 / (n ^ 2 * a ^ 4) := by
      rw [angMom, h1]
      field_simp
      ring
    have h3 : 0 < angMom R0 U0 ^ 2 / (n ^ 2 * a ^ 4) := by positivity
    linarith
  obtain ⟨R, U, h1, h2, h3, -⟩ := hyper_arc (x := 0) ha0 hn0 (show 0 < V3.norm R0 / a by positivity) hcond
    (by rw [← V3.norm_sq]; field_simp) hRV hUU hG
  exact ⟨R, U, h1, h2, h3⟩

/-- A vehicle 119 km above Mars that climbs eastwards at 4.8 km/s relative to the planet. -/
def marsExit (P : Planet) : Vehicle :=
  Vehicle.mk' 500 100 0.2 1 0 1 P ⟨fun _ => 1, fun _ => 1, fun _ => 1, fun _ => 1⟩ false (fun _ => 1)
    ⟨119, 0, 0, 4.8, 0, 7, 0, 0⟩

/-- C146 (finding): `isCaptured` calls a vehicle captured that climbs from Mars for ever.  The solver of this case keeps the
state constant (`constIntegrator`), so the last point is the initial one and not the end of an exact flight; for an exact
flight see `C146_flight_captured_but_leaves`.  Also a case for `C146_verdict_partial` and `C146_unbound_leaves`. -/
theorem C146_captured_but_leaves : ∃ (P : Planet) (out : PropOut) (s : Terminal) (R U : ℝ → V3),
    Planet.init "MARS" = .ok P ∧ (marsExit P).propogateEntry .strict constIntegrator 1200 0.1 0 = .ok out ∧ Spec.IsLast out s ∧
    (marsExit P).isCaptured .strict constIntegrator 1200 0.1 0 = .ok (-1) ∧ CoastsFrom P s R U ∧
    StrictMonoOn (fun t => V3.norm (R t)) (Set.Ici 0) ∧ Filter.Tendsto (fun t => V3.norm (R t)) Filter.atTop Filter.atTop := by
  obtain ⟨P, hP⟩ := (C01_planet_names "MARS").1.mpr (by simp [Spec.bodies])
  obtain ⟨_, hR, hGM, _, _, _, _, _, hV, _⟩ := C01_planet_consistent "MARS" P hP
  have c : P.RP = 3389500 ∧ P.GM = 42828370000000 ∧ P.OMEGA = 7088253 / 100000000000 ∧ P.hTrap = 10000 ∧ P.hSkip = 120000 := by
    simp [Planet.init] at hP
    subst hP
    norm_num [Planet.withScales]
  obtain ⟨c1, c2, c3, c4, c5⟩ := c
  have hp : (marsExit P).planet = P := rfl
  have e : (P.nonDimState (Vehicle.entryState P (marsExit P).init)).r * P.RP - P.RP = 119000 := by
    simp only [Planet.nonDimState, Vehicle.entryState, Planet.computeR, marsExit, Vehicle.mk', div_mul_cancel₀ _ hR.ne']
    norm_num
  obtain ⟨S, e1, e2⟩ := samples_const "MARS" (marsExit P) hP 1200 0.1 0 (by norm_num) (by norm_num)
  obtain ⟨out, ho⟩ := C24_returns "MARS" (marsExit P) hP .strict constIntegrator 1200 0.1 0 _ S e1
    (by rw [hp, e, c4]; norm_num) (by rw [hp, e, c5]; norm_num) (by intro q hq; rw [e2 q hq, hp, e, c4]; norm_num)
  obtain ⟨s, ans, hs, hr, hcap, hans, -, hE, -, -⟩ := C146_verdict_partial "MARS" (marsExit P) hP .strict constIntegrator 1200 0.1 0 out ho
  obtain ⟨-, -, -, a4, a5, a6, a7, a8, a9, -⟩ := C24_arrays_aligned (marsExit P) .strict constIntegrator 1200 0.1 0 out ho
  have hall : ∀ q ∈ samples (marsExit P) constIntegrator 1200 0.1 0,
      q.2 = P.nonDimState (Vehicle.entryState P (marsExit P).init) := by
    intro q hq
    rw [e1, List.mem_cons] at hq
    rcases hq with rfl | hq
    · rfl
    · exact e2 q hq
  have hget : ∀ (l : List ℝ) (f : FState → ℝ) (x : ℝ),
      l = ((samples (marsExit P) constIntegrator 1200 0.1 0).take out.index).map (fun p => f p.2) → l.getLast? = some x →
      x = f (P.nonDimState (Vehicle.entryState P (marsExit P).init)) := by
    intro l f x hl hx
    have := List.mem_of_getLast? hx
    rw [hl, List.mem_map] at this
    obtain ⟨q, hq, rfl⟩ := this
    rw [hall q (List.mem_of_mem_take hq)]
  have s1 : s.r = 3508500 := by
    have := hget _ (fun y => y.r * P.RP) _ a4 hs.1
    rw [this]
    linarith [e]
  have s2 : s.v = 4800 := by
    rw [hget _ (fun y => y.v * P.Vref) _ a7 hs.2.1]
    simp only [Planet.nonDimState, Vehicle.entryState, marsExit, Vehicle.mk', div_mul_cancel₀ _ hV.ne']
    norm_num
  have s3 : s.g = 7 * π / 180 := by
    rw [hget _ (fun y => y.gamma) _ a9 hs.2.2.1]
    simp only [Planet.nonDimState, Vehicle.entryState, marsExit, Vehicle.mk']
    norm_num
  have s4 : s.theta = 0 := by
    rw [hget _ (fun y => y.theta) _ a5 hs.2.2.2.1]
    simp [Planet.nonDimState, Vehicle.entryState, marsExit, Vehicle.mk']
  have s5 : s.phi = 0 := by
    rw [hget _ (fun y => y.phi) _ a6 hs.2.2.2.2.1]
    simp [Planet.nonDimState, Vehicle.entryState, marsExit, Vehicle.mk']
  have s6 : s.psi = 0 := by
    rw [hget _ (fun y => y.psi) _ a8 hs.2.2.2.2.2]
    simp [Planet.nonDimState, Vehicle.entryState, marsExit, Vehicle.mk']
  have hpi := pi_le_four
  have hpi0 := pi_pos
  have hcos : (9 / 10 : ℝ) ≤ cos s.g := by
    refine le_trans ?_ (one_sub_sq_div_two_le_cos (x := s.g))
    rw [s3]
    have : (7 * π / 180) ^ 2 ≤ (7 * 4 / 180) ^ 2 := by gcongr
    norm_num at this ⊢
    linarith
  have hsin : 0 < sin s.g := by
    rw [s3]; exact sin_pos_of_pos_of_lt_pi (by positivity) (by linarith)
  rw [hp, s1, s2, s5, s6, cos_zero, c2, c3] at hE
  have hE0 : 0 < exitEnergy P s := by
    rw [hE]
    norm_num
    linarith
  have hn : V3.norm (pos s.r s.theta s.phi) = s.r := norm_pos_r hr
  have hcross : 0 < angMom (pos s.r s.theta s.phi)
      (vel s.theta s.phi s.v s.psi s.g + V3.cross (spin P.OMEGA) (pos s.r s.theta s.phi)) := by
    refine lt_of_le_of_ne (V3.norm_nonneg _) fun h0 => ?_
    have h1 := congrArg V3.z (V3.norm_eq_zero.mp h0.symm)
    simp only [pos, vel, along, up, horiz, east, north, spin, V3.cross, V3.add_x, V3.add_y, V3.add_z, V3.smul_x,
      V3.smul_y, V3.smul_z, s4, s5, s6, sin_zero, cos_zero, s1, s2, c3] at h1
    norm_num at h1
    linarith
  obtain ⟨R, U, hRU, hR0, hU0⟩ := hyperbolic_motion hGM _ _ (by rw [hn]; exact hr) hE0 hcross
  have hco : CoastsFrom P s R U := ⟨hRU, hR0, hU0⟩
  have hleave := C146_unbound_leaves "MARS" P hP s hr hE0.le (by rw [s2]; positivity) R U hco
  refine ⟨P, out, s, R, U, hP, ho, hs, ?_, hco, hleave.1, hleave.2⟩
  obtain ⟨r, v, q1, q2, q3, -⟩ := (C30_capture_verdict (marsExit P) .strict constIntegrator 1200 0.1 0).1 out ho
  obtain rfl : r = s.r := Option.some.inj (q1.symm.trans hs.1)
  obtain rfl : v = s.v := Option.some.inj (q2.symm.trans hs.2.1)
  refine q3 ?_
  rw [s1, s2, hp, c2]
  norm_num

/-- A vehicle 100 km above Mars, climbing, whose orbit has the eccentricity 3/5 and the present distance as semi-major axis. -/
theorem bound_exit : ∃ (P : Planet) (s : Terminal) (R U : ℝ → V3), Planet.init "MARS" = .ok P ∧ s.r - P.RP = 100000 ∧ 0 < s.r ∧
    CoastsFrom P s R U ∧ exitEnergy P s < 0 ∧ 0 < exitAngMom P s ∧ 0 < s.v * sin s.g := by
  obtain ⟨P, hP⟩ := (C01_planet_names "MARS").1.mpr (by simp [Spec.bodies])
  obtain ⟨_, hR, hGM, _⟩ := C01_planet_consistent "MARS" P hP
  set a := P.RP + 100000 with ha
  have ha0 : 0 < a := by positivity
  set n := √(P.GM / a ^ 3) with hn
  have hn0 : 0 < n := sqrt_pos.mpr (by positivity)
  have hn2 : n ^ 2 = P.GM / a ^ 3 := sq_sqrt (by positivity)
  have hG : n ^ 2 * a ^ 3 = P.GM := by rw [hn2]; field_simp
  have h0 : (-1:ℝ) < 3 / 5 := by norm_num
  have h1 : (3 / 5 : ℝ) < 1 := by norm_num
  set u : V3 := ⟨-(3 / 5), -(4 / 5), 0⟩ with hu
  set q : V3 := ⟨4 / 5, -(3 / 5), 0⟩ with hq
  have huu : V3.dot u u = 1 := by simp only [hu, V3.dot]; norm_num
  have hqq : V3.dot q q = 1 := by simp only [hq, V3.dot]; norm_num
  have huq : V3.dot u q = 0 := by simp only [hu, hq, V3.dot]; norm_num
  have hm := kepler_motion (GM := P.GM) (n := n) ha0 h0 h1 huu hqq huq hG
  -- the phase at which the eccentric anomaly is a right angle
  set t0 := kep (3 / 5) (π / 2) / n with ht0
  have hph : ecc h0 h1 (n * t0) = π / 2 := by
    rw [ht0, mul_div_cancel₀ _ hn0.ne', ecc_kep]
  have hb : √(1 - (3 / 5 : ℝ) ^ 2) = 4 / 5 := by
    rw [show (1 - (3 / 5 : ℝ) ^ 2) = (4 / 5) ^ 2 by norm_num, sqrt_sq (by norm_num)]
  set R : ℝ → V3 := fun t => kPos a (3 / 5) u q (ecc h0 h1 (n * (t + t0))) with hRd
  set U : ℝ → V3 := fun t => kVel n a (3 / 5) u q (ecc h0 h1 (n * (t + t0))) with hUd
  have hmot : Spec.TwoBodyMotion P.GM R U := by
    intro t
    obtain ⟨⟨x1, x2, x3⟩, y1, y2, y3⟩ := hm (t + t0)
    exact ⟨⟨x1.comp_add_const t t0, x2.comp_add_const t t0, x3.comp_add_const t t0⟩,
      y1.comp_add_const t t0, y2.comp_add_const t t0, y3.comp_add_const t t0⟩
  set z : ℂ := ⟨n * a * (4 / 5) - P.OMEGA * a, n * a * (3 / 5)⟩ with hz
  have hz0 : z ≠ 0 := by
    intro h
    have : z.im = 0 := by rw [h]; rfl
    simp only [hz] at this
    have : 0 < n * a * (3 / 5) := by positivity
    linarith
  have zc : ‖z‖ * cos z.arg = n * a * (4 / 5) - P.OMEGA * a := Complex.norm_mul_cos_arg z
  have zs : ‖z‖ * sin z.arg = n * a * (3 / 5) := Complex.norm_mul_sin_arg z
  set s : Terminal := ⟨a, ‖z‖, z.arg, 0, 0, 0⟩ with hs
  have hco : CoastsFrom P s R U := by
    refine ⟨hmot, ?_, ?_⟩
    · simp only [hRd, zero_add, hph, kPos, cos_pi_div_two, sin_pi_div_two, hb, hs, pos, up, hu, hq, sin_zero, cos_zero]
      ext <;> simp only [V3.add_x, V3.add_y, V3.add_z, V3.smul_x, V3.smul_y, V3.smul_z] <;> ring
    · simp only [hUd, zero_add, hph, kVel, cos_pi_div_two, sin_pi_div_two, hb, hs, pos, vel, along, horiz, up, east, north,
        spin, V3.cross, hu, hq, sin_zero, cos_zero]
      ext <;> simp only [V3.add_x, V3.add_y, V3.add_z, V3.smul_x, V3.smul_y, V3.smul_z]
      · linear_combination -zs
      · linear_combination -zc
      · ring
  have hU0 : U 0 = ⟨n * a * (3 / 5), n * a * (4 / 5), 0⟩ := by
    simp only [hUd, zero_add, hph, kVel, cos_pi_div_two, sin_pi_div_two, hb, hu, hq]
    ext <;> simp only [V3.add_x, V3.add_y, V3.add_z, V3.smul_x, V3.smul_y, V3.smul_z] <;> ring
  have hE : exitEnergy P s < 0 := by
    unfold exitEnergy
    rw [← hco.2.2, ← hco.2.1, energy, V3.norm_sq, hco.2.1, norm_pos_r (show 0 < s.r from ha0), hU0]
    simp only [V3.dot, hs]
    have : P.GM / a = n ^ 2 * a ^ 2 := by rw [← hG]; field_simp
    rw [this]
    have : 0 < n ^ 2 * a ^ 2 := by positivity
    nlinarith
  have hR0 : R 0 = ⟨a, 0, 0⟩ := by
    rw [hco.2.1]
    simp only [hs, pos, up, sin_zero, cos_zero]
    ext <;> simp
  have hh : 0 < exitAngMom P s := by
    unfold exitAngMom
    rw [← hco.2.2, ← hco.2.1, hU0, hR0, angMom]
    refine lt_of_le_of_ne (V3.norm_nonneg _) fun h => ?_
    have h3 := congrArg V3.z (V3.norm_eq_zero.mp h.symm)
    simp only [V3.cross] at h3
    have h4 : a * (n * a * (4 / 5)) - 0 * (n * a * (3 / 5)) = 0 := h3
    have : 0 < a * (n * a * (4 / 5)) := by positivity
    linarith
  exact ⟨P, s, R, U, hP, by simp only [hs, ha]; ring, ha0, hco, hE, hh, by simp only [hs]; rw [zs]; positivity⟩

/-- Case for `C146_bound_stays`: the vehicle of `bound_exit`. -/
example : ∃ (P : Planet) (s : Terminal) (R U : ℝ → V3) (A B t : ℝ), Planet.init "MARS" = .ok P ∧ s.r - P.RP = 100000 ∧
    CoastsFrom P s R U ∧ s.apoapsisAltitudeKm P = some A ∧ s.periapsisAltitudeKm P = some B ∧
    (∀ t, 0 ≤ t → P.RP + 1000 * B ≤ V3.norm (R t) ∧ V3.norm (R t) ≤ P.RP + 1000 * A) ∧
    0 < t ∧ V3.norm (R t) = P.RP + 1000 * A ∧ StrictMonoOn (fun t => V3.norm (R t)) (Set.Icc 0 t) := by
  obtain ⟨P, s, R, U, hP, ha, hr, hco, hE, hh, hc⟩ := bound_exit
  obtain ⟨A, B, k1, k2, -, -, k3, k4⟩ := C146_bound_stays "MARS" P hP s hr hE hh R U hco
  obtain ⟨t, m1, -, m2, -, m3⟩ := k4 hc
  exact ⟨P, s, R, U, A, B, t, hP, ha, hco, k1, k2, k3, m1, m2, m3⟩

end AMAT.Props
