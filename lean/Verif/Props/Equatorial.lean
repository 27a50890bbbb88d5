import Mathlib.Analysis.ODE.Gronwall
import Verif.Props.AngularMomentum
import Verif.Props.ShippedFlight

/-
Properties C61 and C97: flights that start in the equatorial plane stay in it, and keep their angular
momentum above the atmosphere.
-/

noncomputable section

open Real

namespace AMAT.Props

open Real AMAT AMAT.Spec AMAT.Data AMAT.Spline AMAT.Lits

/-- Factor of `sin φ` in the heading rate of the code, for zero `J3` and a vertical lift vector. -/
def headingA (P : Planet) (s : FState) : ℝ :=
  cos s.psi * (-3 * P.J2 / s.r ^ 4) * cos s.phi / (s.v * (cos s.gamma + 1e-2))
    - s.v / s.r * cos s.gamma * cos s.psi / cos s.phi
    - P.OMEGAbar ^ 2 * s.r / (s.v * (cos s.gamma + 1e-2)) * cos s.phi * cos s.psi - 2 * P.OMEGAbar

/-- Factor of `sin ψ`. -/
def headingB (P : Planet) (s : FState) : ℝ :=
  2 * P.OMEGAbar * (sin s.gamma / (cos s.gamma + 1e-2)) * cos s.phi

theorem heading_rate (V : Vehicle) (s : FState) (t delta : ℝ) (hJ : V.planet.J3 = 0) (hd : sin delta = 0) :
    (V.EOM s t delta).psi = headingA V.planet s * sin s.phi + headingB V.planet s * sin s.psi := by
  simp only [Vehicle.EOM, Vehicle.a_wbar, Vehicle.gwbar, Vehicle.gthetabar, Vehicle.gphibar, Vehicle.cfpsibar,
    Vehicle.copsibar, hJ, hd, headingA, headingB, l00, l10, l15, l20, l30, l50, tan_eq_sin_div_cos]
  generalize (1e-2 : ℝ) = c
  ring

/-- C61: on a body with zero `J3` every flight that starts on the equator heading due east or due west, with the lift
vector in the vertical plane (bank angle 0° or 180°, switched at will), stays on the equator and keeps its
heading as long as it lasts, through any atmosphere. -/
theorem C61_stays_equatorial (V : Vehicle) (hJ : V.planet.J3 = 0) (delta : ℝ → ℝ) (y : ℝ → FState) (a b : ℝ)
    (hy : ∀ t ∈ Set.Icc a b, SolvesAt (fun s => V.EOM s t (delta t)) y t)
    (hd : ∀ t ∈ Set.Icc a b, sin (delta t) = 0)
    (hr : ∀ t ∈ Set.Icc a b, (y t).r ≠ 0) (hv : ∀ t ∈ Set.Icc a b, (y t).v ≠ 0)
    (hp : ∀ t ∈ Set.Icc a b, cos (y t).phi ≠ 0) (hg : ∀ t ∈ Set.Icc a b, cos (y t).gamma + 1e-2 ≠ 0)
    (h0 : (y a).phi = 0) (h1 : sin (y a).psi = 0) :
    ∀ t ∈ Set.Icc a b, (y t).phi = 0 ∧ (y t).psi = (y a).psi := by
  have cr : ContinuousOn (fun t => (y t).r) (Set.Icc a b) := fun t ht =>
    (hy t ht).r.continuousAt.continuousWithinAt
  have cv : ContinuousOn (fun t => (y t).v) (Set.Icc a b) := fun t ht =>
    (hy t ht).v.continuousAt.continuousWithinAt
  have cp : ContinuousOn (fun t => (y t).phi) (Set.Icc a b) := fun t ht =>
    (hy t ht).phi.continuousAt.continuousWithinAt
  have cs : ContinuousOn (fun t => (y t).psi) (Set.Icc a b) := fun t ht =>
    (hy t ht).psi.continuousAt.continuousWithinAt
  have cg : ContinuousOn (fun t => (y t).gamma) (Set.Icc a b) := fun t ht =>
    (hy t ht).gamma.continuousAt.continuousWithinAt
  have cA : ContinuousOn (fun t => headingA V.planet (y t)) (Set.Icc a b) := by
    unfold headingA
    have e1 : ∀ t ∈ Set.Icc a b, (y t).v * (cos (y t).gamma + 1e-2) ≠ 0 := fun t ht => mul_ne_zero (hv t ht) (hg t ht)
    have e2 : ∀ t ∈ Set.Icc a b, (y t).r ^ 4 ≠ 0 := fun t ht => pow_ne_zero _ (hr t ht)
    fun_prop (disch := assumption)
  have cB : ContinuousOn (fun t => headingB V.planet (y t)) (Set.Icc a b) := by
    unfold headingB
    fun_prop (disch := assumption)
  have cC : ContinuousOn (fun t => (y t).v * cos (y t).gamma / (y t).r) (Set.Icc a b) := by
    fun_prop (disch := assumption)
  obtain ⟨KA, hKA⟩ := isCompact_Icc.exists_bound_of_continuousOn cA
  obtain ⟨KB, hKB⟩ := isCompact_Icc.exists_bound_of_continuousOn cB
  obtain ⟨KC, hKC⟩ := isCompact_Icc.exists_bound_of_continuousOn cC
  have key := eq_zero_of_abs_deriv_le_mul_abs_self_of_eq_zero_right
    (f := fun t => ((y t).phi, (y t).psi - (y a).psi))
    (f' := fun t => ((V.EOM (y t) t (delta t)).phi, (V.EOM (y t) t (delta t)).psi)) (K := KA + KB + KC)
    (a := a) (b := b) (cp.prodMk (cs.sub continuousOn_const)) ?_ ?_ ?_
  · intro t ht
    have := key t ht
    simp only [Prod.mk_eq_zero] at this
    exact ⟨this.1, by linarith [this.2]⟩
  · intro t ht
    have hs := hy t (Set.Ico_subset_Icc_self ht)
    exact (hs.phi.prodMk (hs.psi.sub_const _)).hasDerivWithinAt
  · simp [h0]
  · intro t ht
    have ht' := Set.Ico_subset_Icc_self ht
    have hA := hKA t ht'; have hB := hKB t ht'; have hC := hKC t ht'
    rw [Real.norm_eq_abs] at hA hB hC
    have hsin : |sin (y t).psi| ≤ |(y t).psi - (y a).psi| := by
      have e : sin (y t).psi = cos (y a).psi * sin ((y t).psi - (y a).psi) := by
        have := sin_add (y a).psi ((y t).psi - (y a).psi)
        rw [add_sub_cancel, h1, zero_mul, zero_add] at this
        exact this
      rw [e, abs_mul]
      calc _ ≤ 1 * |sin ((y t).psi - (y a).psi)| :=
            mul_le_mul_of_nonneg_right (abs_cos_le_one _) (abs_nonneg _)
        _ ≤ _ := by rw [one_mul]; exact abs_sin_le_abs
    have hn1 : |(y t).phi| ≤ ‖((y t).phi, (y t).psi - (y a).psi)‖ := by
      rw [Prod.norm_def, Real.norm_eq_abs]; exact le_max_left _ _
    have hn2 : |(y t).psi - (y a).psi| ≤ ‖((y t).phi, (y t).psi - (y a).psi)‖ := by
      rw [Prod.norm_def, Real.norm_eq_abs, Real.norm_eq_abs]; exact le_max_right _ _
    set M := ‖((y t).phi, (y t).psi - (y a).psi)‖ with hM
    have hM0 : 0 ≤ M := norm_nonneg _
    have b1 : |sin (y t).phi| ≤ M := (abs_sin_le_abs).trans hn1
    have b2 : |sin (y t).psi| ≤ M := hsin.trans hn2
    have hA0 := (abs_nonneg _).trans hA
    have hB0 := (abs_nonneg _).trans hB
    have hC0 := (abs_nonneg _).trans hC
    rw [Prod.norm_def, max_le_iff]
    constructor
    · simp only [Real.norm_eq_abs]
      have e : (V.EOM (y t) t (delta t)).phi = (y t).v * cos (y t).gamma / (y t).r * sin (y t).psi := by
        simp only [Vehicle.EOM]; ring
      rw [e, abs_mul]
      have := mul_le_mul hC b2 (abs_nonneg _) hC0
      nlinarith [mul_nonneg hA0 hM0, mul_nonneg hB0 hM0]
    · simp only [Real.norm_eq_abs]
      rw [heading_rate V (y t) t (delta t) hJ (hd t ht')]
      have t1 := mul_le_mul hA b1 (abs_nonneg _) hA0
      have t2 := mul_le_mul hB b2 (abs_nonneg _) hB0
      rw [← abs_mul] at t1 t2
      have := abs_add_le (headingA V.planet (y t) * sin (y t).phi) (headingB V.planet (y t) * sin (y t).psi)
      nlinarith [mul_nonneg hC0 hM0]

/-- C97: above the atmosphere a flight that starts on the equator due east or due west, on a body with zero `J3`, keeps
its angular momentum about the axis of the planet, whatever the vehicle and as long as it lasts. -/
theorem C97_equatorial_flight_conserves (name : String) (P : Planet)
    (hP : Planet.init name = .ok P) (hJ : P.J3 = 0) (m beta LD A alpha RN : ℝ) (atm : Atmosphere) (f : ℝ → ℝ)
    (st : InitState) (hm : 0 < m) (hb : 0 < beta) (hA : 0 < A) (delta : ℝ → ℝ) (y : ℝ → FState) (a b : ℝ)
    (hy : ∀ t ∈ Set.Icc a b,
      SolvesAt (fun s => (Vehicle.mk' m beta LD A alpha RN P atm false f st).EOM s t (delta t)) y t)
    (hd : ∀ t ∈ Set.Icc a b, sin (delta t) = 0)
    (hr : ∀ t ∈ Set.Icc a b, P.hThres < P.computeH ((y t).r * P.RP))
    (hp : ∀ t ∈ Set.Icc a b, cos (y t).phi ≠ 0) (hv : ∀ t ∈ Set.Icc a b, (y t).v ≠ 0)
    (hg : ∀ t ∈ Set.Icc a b, cos (y t).gamma + 1e-2 ≠ 0)
    (h0 : (y a).phi = 0) (h1 : sin (y a).psi = 0) :
    ∀ t ∈ Set.Icc a b, stateMomentum P.OMEGAbar (y t) = stateMomentum P.OMEGAbar (y a) := by
  obtain ⟨_, hR, _, _, _, hTr, hTS, hST, _⟩ := C01_planet_consistent name P hP
  have hr0 : ∀ t ∈ Set.Icc a b, (y t).r ≠ 0 := by
    intro t ht h0
    have := hr t ht
    simp only [Planet.computeH, h0] at this
    linarith
  have heq := C61_stays_equatorial (Vehicle.mk' m beta LD A alpha RN P atm false f st) hJ delta y a b hy hd hr0 hv hp
    hg h0 h1
  exact C97_conserved_in_vacuum name P hP m beta LD A alpha RN atm f st hm hb hA delta y a b hy hr hp hv hg
    (fun t ht => by rw [(heq t ht).2]; exact h1)

/-- C97: a ballistic vehicle that starts on the equator due east, on a body with zero `J3`, never gains angular momentum
about the axis, through any non-negative atmosphere and as long as it lasts. -/
theorem C97_equatorial_entry_loses (name : String) (P : Planet)
    (hP : Planet.init name = .ok P) (hJ : P.J3 = 0) (m beta A alpha RN : ℝ) (atm : Atmosphere) (f : ℝ → ℝ)
    (st : InitState) (hm : 0 < m) (hb : 0 < beta) (hA : 0 < A) (delta : ℝ → ℝ) (y : ℝ → FState) (a b : ℝ)
    (hatm : ∀ h, 0 ≤ h → h ≤ P.hThres → 0 ≤ atm.densityInt h)
    (hy : ∀ t ∈ Set.Icc a b,
      SolvesAt (fun s => (Vehicle.mk' m beta 0 A alpha RN P atm false f st).EOM s t (delta t)) y t)
    (hd : ∀ t ∈ Set.Icc a b, sin (delta t) = 0)
    (hr : ∀ t ∈ Set.Icc a b, 0 < (y t).r) (hp : ∀ t ∈ Set.Icc a b, 0 < cos (y t).phi)
    (hv : ∀ t ∈ Set.Icc a b, (y t).v ≠ 0) (hg : ∀ t ∈ Set.Icc a b, 0 ≤ cos (y t).gamma)
    (h0 : (y a).phi = 0) (h1 : (y a).psi = 0) :
    AntitoneOn (fun s => stateMomentum P.OMEGAbar (y s)) (Set.Icc a b) := by
  have heq := C61_stays_equatorial (Vehicle.mk' m beta 0 A alpha RN P atm false f st) hJ delta y a b hy hd
    (fun t ht => (hr t ht).ne') hv (fun t ht => (hp t ht).ne')
    (fun t ht => by have := hg t ht; positivity) h0 (by rw [h1, sin_zero])
  exact C97_drag_takes_momentum name P hP m beta A alpha RN atm f st hm hb hA delta y a b hatm hy hr hp hv hg
    (fun t ht => by rw [(heq t ht).2, h1, cos_zero])

/-- A vehicle at 50 km altitude above the equator in the shipped atmosphere of Venus, flying east and downwards at the
reference speed, flies on for some time in the atmosphere. -/
theorem venus_flight : ∃ (P : Planet) (atm : Atmosphere), Planet.init "VENUS" = .ok P ∧
    LoadedCubic P venus.km (fileRows venus) atm ∧
    ∀ (m beta LD A alpha RN : ℝ) (f : ℝ → ℝ) (st : InitState) (delta : ℝ),
      ∃ (y : ℝ → FState) (a b : ℝ), a < b ∧ 0 ∈ Set.Ioo a b ∧
        y 0 = ⟨1 + 50e3 / P.RP, 0, 0, 1, 0, -0.1, 0⟩ ∧
        (∀ t ∈ Set.Icc a b,
          SolvesAt (fun s => (Vehicle.mk' m beta LD A alpha RN P atm false f st).EOM s t delta) y t) ∧
        (∀ t ∈ Set.Icc a b, 0 < (y t).r) ∧ (∀ t ∈ Set.Icc a b, 0 < (y t).v) ∧
        (∀ t ∈ Set.Icc a b, 0 < (y t).r * P.RP - P.RP ∧ (y t).r * P.RP - P.RP ≤ P.hThres) ∧
        (∀ t ∈ Set.Icc a b, 0 < cos (y t).phi) ∧ (∀ t ∈ Set.Icc a b, 0 < cos (y t).gamma) := by
  obtain ⟨P, hP⟩ := (C01_planet_names "VENUS").1.mpr (by simp [Spec.bodies])
  have hF : ("VENUS", venus) ∈ shippedFiles := by simp [shippedFiles]
  obtain ⟨atm, hatm⟩ := (C85_loads "VENUS" venus hF P hP).1
  refine ⟨P, atm, hP, hatm, ?_⟩
  intro m beta LD A alpha RN f st delta
  have hR : 0 < P.RP := (C01_planet_consistent "VENUS" P hP).2.1
  have hT : P.hThres = 180e3 := by
    simp [Planet.init] at hP; subst hP; norm_num [Planet.withScales]
  have halt : (1 + 50e3 / P.RP) * P.RP - P.RP = 50e3 := by field_simp; ring
  have hcg : 0 < cos (-0.1 : ℝ) := cos_pos_of_mem_Ioo ⟨by linarith [one_le_pi_div_two], by linarith [one_le_pi_div_two]⟩
  have hr0 : 0 < 1 + 50e3 / P.RP := by positivity
  obtain ⟨⟨y, h0, ε, hε, hy⟩, -⟩ := C88_shipped_local_solution "VENUS" venus hF P hP atm hatm m beta LD A alpha RN f st
    delta ⟨1 + 50e3 / P.RP, 0, 0, 1, 0, -0.1, 0⟩ 0 hr0.ne' one_ne_zero (by simp) (by simp only; intro h; linarith)
    (by simp only [halt]; norm_num) (by simp only [halt, hT]; norm_num)
  have hs := hy 0 ⟨by linarith, by linarith⟩
  have hrc := hs.r.continuousAt
  have hev : ∀ᶠ t in nhds (0 : ℝ), t ∈ Set.Ioo (0 - ε) (0 + ε) ∧ 0 < (y t).r ∧ 0 < (y t).v ∧
      0 < (y t).r * P.RP - P.RP ∧ (y t).r * P.RP - P.RP < P.hThres ∧ 0 < cos (y t).phi ∧ 0 < cos (y t).gamma := by
    have hra : ContinuousAt (fun t => (y t).r * P.RP - P.RP) 0 := (hrc.mul_const _).sub_const _
    have hpc : ContinuousAt (fun t => cos (y t).phi) 0 :=
      continuous_cos.continuousAt.comp hs.phi.continuousAt
    have hgc : ContinuousAt (fun t => cos (y t).gamma) 0 :=
      continuous_cos.continuousAt.comp hs.gamma.continuousAt
    have hI : ∀ᶠ t in nhds (0 : ℝ), t ∈ Set.Ioo (0 - ε) (0 + ε) := Ioo_mem_nhds (by linarith) (by linarith)
    refine hI.and ((hrc.eventually (lt_mem_nhds ?_)).and
      ((hs.v.continuousAt.eventually (lt_mem_nhds ?_)).and ((hra.eventually (lt_mem_nhds ?_)).and
      ((hra.eventually (gt_mem_nhds ?_)).and ((hpc.eventually (lt_mem_nhds ?_)).and
      (hgc.eventually (lt_mem_nhds ?_)))))))
    · simp only [h0]; exact hr0
    · simp only [h0]; exact one_pos
    · simp only [h0, halt]; norm_num
    · simp only [h0, halt, hT]; norm_num
    · simp only [h0]; simp
    · simp only [h0]; exact hcg
  obtain ⟨η, hη, h2⟩ := Metric.eventually_nhds_iff.mp hev
  have h3 : ∀ t ∈ Set.Icc (-(η / 2)) (η / 2), dist t 0 < η := by
    intro t ht
    rw [Real.dist_eq, sub_zero, abs_lt]
    constructor <;> linarith [ht.1, ht.2]
  exact ⟨y, -(η / 2), η / 2, by linarith, ⟨by linarith, by linarith⟩, h0, fun t ht => hy t (h2 (h3 t ht)).1,
    fun t ht => (h2 (h3 t ht)).2.1, fun t ht => (h2 (h3 t ht)).2.2.1,
    fun t ht => ⟨(h2 (h3 t ht)).2.2.2.1, (h2 (h3 t ht)).2.2.2.2.1.le⟩,
    fun t ht => (h2 (h3 t ht)).2.2.2.2.2.1, fun t ht => (h2 (h3 t ht)).2.2.2.2.2.2⟩

/-- Case for `C61_stays_equatorial`, `C97_equatorial_entry_loses` and `C97_drag_takes_momentum`: that flight, with zero
lift, from its start on. -/
example : ∃ (P : Planet) (y : ℝ → FState) (b : ℝ), Planet.init "VENUS" = .ok P ∧ 0 < b ∧ (y 0).gamma = -0.1 ∧
    (∀ t ∈ Set.Icc 0 b, (y t).phi = 0 ∧ (y t).psi = 0) ∧
    AntitoneOn (fun s => stateMomentum P.OMEGAbar (y s)) (Set.Icc 0 b) := by
  obtain ⟨P, atm, hP, hatm, h⟩ := venus_flight
  obtain ⟨y, a, b, hab, h0, hy0, hy, hr, hv, hin, hc, hg⟩ :=
    h 1000 100 0 10 0 1 (fun _ => 0) ⟨0, 0, 0, 0, 0, 0, 0, 0⟩ 0
  have hJ : P.J3 = 0 := (C61_bodies "VENUS" P hP).mpr (by simp)
  have hsub : ∀ t ∈ Set.Icc 0 b, t ∈ Set.Icc a b := fun t ht => ⟨h0.1.le.trans ht.1, ht.2⟩
  have hF : ("VENUS", venus) ∈ shippedFiles := by simp [shippedFiles]
  refine ⟨P, y, b, hP, h0.2, by rw [hy0], ?_, ?_⟩
  · have := C61_stays_equatorial _ hJ (fun _ => 0) y 0 b (fun t ht => hy t (hsub t ht)) (fun _ _ => sin_zero)
      (fun t ht => (hr t (hsub t ht)).ne') (fun t ht => (hv t (hsub t ht)).ne')
      (fun t ht => (hc t (hsub t ht)).ne') (fun t ht => by have := hg t (hsub t ht); positivity) (by rw [hy0])
      (by rw [hy0, sin_zero])
    intro t ht
    refine ⟨(this t ht).1, ?_⟩
    rw [(this t ht).2, hy0]
  · refine C97_equatorial_entry_loses "VENUS" P hP hJ 1000 100 10 0 1 atm _ _ (by norm_num) (by norm_num)
      (by norm_num) (fun _ => 0) y 0 b ?_ (fun t ht => hy t (hsub t ht)) (fun _ _ => sin_zero)
      (fun t ht => hr t (hsub t ht)) (fun t ht => hc t (hsub t ht)) (fun t ht => (hv t (hsub t ht)).ne')
      (fun t ht => (hg t (hsub t ht)).le) (by rw [hy0]) (by rw [hy0])
    intro z hz0 hz1
    have := (C85_density_positive "VENUS" venus hF P hP atm hatm z).mpr hz1
    rw [Planet.density, if_pos ⟨hz0, hz1⟩] at this
    exact this.le

/-- Case for `C97_equatorial_flight_conserves`: the circular orbit of `C65_orbit_exists`. -/
example : ∃ (P : Planet) (r v : ℝ), Planet.init "URANUS" = .ok P ∧ 0 < r ∧ 0 < v ∧ ∀ t ∈ Set.Icc (0:ℝ) 86400,
    stateMomentum P.OMEGAbar ⟨r, v / r * t, 0, v, 0, 0, v * t⟩ =
      stateMomentum P.OMEGAbar ⟨r, v / r * 0, 0, v, 0, 0, v * 0⟩ := by
  obtain ⟨P, V, r, v, hP, hV, hr, hv, hJ, hvac, hbal, rfl, hth⟩ := C65_orbit_exists
  refine ⟨P, r, v, hP, hr, hv, ?_⟩
  have hs := C65_circular_orbit_is_solution _ 0 r v hr hv hJ hvac hbal
  exact C97_equatorial_flight_conserves "URANUS" P hP hJ 300 78 0.35 3.1416 0 1 _ _ _ (by norm_num) (by norm_num)
    (by norm_num) (fun _ => 0) _ 0 86400 (fun t _ => hs t) (fun _ _ => sin_zero) (fun _ _ => hth)
    (fun _ _ => by simp) (fun _ _ => hv.ne') (fun _ _ => by simp; norm_num) rfl (by simp)

end AMAT.Props
