import Verif.Lemmas.SplineSmooth
import Verif.Lemmas.WellPosed
import Verif.Props.Dynamics
import Verif.Props.HeatingProps
import Verif.Props.ShippedAtmospheres

/-
Properties C87 and C88: flights through the atmospheres shipped with the source; existence and uniqueness of the
trajectories the integrators are asked for.
-/

noncomputable section

namespace AMAT.Props

open Real AMAT.Spec AMAT.Spline AMAT.Data

/-! ### C87 -/

/-- C87: a vehicle moving with positive speed in any shipped atmosphere (default interpolation) loses energy, in the
frame rotating with the planet, exactly while it is not above the edge of the atmosphere; above the edge the energy is
constant.  The convective heating rate is positive exactly there, too. -/
theorem C87_energy_and_heating (name : String) (F : AtmFile) (hF : (name, F) ∈ shippedFiles) (P : Planet)
    (hP : Planet.init name = .ok P) (atm : Atmosphere) (hatm : LoadedCubic P F.km (fileRows F) atm)
    (m beta LD A alpha RN : ℝ) (f : ℝ → ℝ) (st : InitState) (hm : 0 < m) (hb : 0 < beta) (hA : 0 < A) (hRN : 0 < RN)
    (delta : ℝ) (y : ℝ → FState) (t : ℝ)
    (hy : SolvesAt (fun s => (Vehicle.mk' m beta LD A alpha RN P atm false f st).EOM s t delta) y t)
    (hr : (y t).r ≠ 0) (hv : 0 < (y t).v) :
    ∃ E' : ℝ, HasDerivAt (fun s => jacobi P.J2 P.J3 P.OMEGAbar (y s).r (y s).phi (y s).v) E' t ∧
      (E' < 0 ↔ (y t).r * P.RP - P.RP ≤ P.hThres) ∧ (E' = 0 ↔ P.hThres < (y t).r * P.RP - P.RP) ∧
      ∃ qc, qConvFn P.ID = some qc ∧ ∀ v > 0,
        (0 < qc RN (P.rho atm ((y t).r * P.RP) (y t).theta (y t).phi) v ↔
          (y t).r * P.RP - P.RP ≤ P.hThres) := by
  have hd := C18_energy_rate_is_minus_drag_power name P hP m beta LD A alpha RN atm f st hm hb hA delta y t hy hr
  obtain ⟨_, hR, _⟩ := C01_planet_consistent name P hP
  have hpos := C85_density_positive name F hF P hP atm hatm ((y t).r * P.RP - P.RP)
  have hzero : P.hThres < (y t).r * P.RP - P.RP → P.density atm ((y t).r * P.RP - P.RP) = 0 := fun h => by
    rw [Planet.density, if_neg (fun hc => absurd hc.2 (not_le.mpr h)), if_pos h]
  refine ⟨_, hd, ?_, ?_, ?_⟩
  · rw [← hpos]
    unfold Planet.rho
    constructor
    · intro h
      rcases le_or_gt ((y t).r * P.RP - P.RP) P.hThres with hc | hc
      · exact hpos.mpr hc
      · rw [hzero hc] at h; norm_num at h
    · intro h
      have : 0 < P.RP * P.density atm ((y t).r * P.RP - P.RP) * (y t).v ^ 3 / (2 * beta) := by positivity
      linarith
  · unfold Planet.rho
    constructor
    · intro h
      by_contra hc
      have h1 := hpos.mpr (not_lt.mp hc)
      have : 0 < P.RP * P.density atm ((y t).r * P.RP - P.RP) * (y t).v ^ 3 / (2 * beta) := by positivity
      linarith
    · intro h
      rw [hzero h]; ring
  · obtain ⟨qc, _, h1, _, h3, _, h5⟩ := C25_heat_laws name P hP
    refine ⟨qc, h1, fun v hv' => ?_⟩
    unfold Planet.rho
    constructor
    · intro h
      by_contra hc
      rw [hzero (not_le.mp hc), (h3 RN hRN).2.1 v hv'.le] at h
      exact lt_irrefl _ h
    · intro h
      exact (h5 (RN / 2) RN _ v (by linarith) (by linarith) (hpos.mpr h) hv').1

/-- C87: over every time span in which the vehicle stays in the atmosphere its energy strictly decreases, whatever the
bank angle history. -/
theorem C87_energy_strictly_decreases (name : String) (F : AtmFile) (hF : (name, F) ∈ shippedFiles) (P : Planet)
    (hP : Planet.init name = .ok P) (atm : Atmosphere) (hatm : LoadedCubic P F.km (fileRows F) atm)
    (m beta LD A alpha RN : ℝ) (f : ℝ → ℝ) (st : InitState) (hm : 0 < m) (hb : 0 < beta) (hA : 0 < A)
    (delta : ℝ → ℝ) (y : ℝ → FState) (a b : ℝ)
    (hy : ∀ t ∈ Set.Icc a b,
      SolvesAt (fun s => (Vehicle.mk' m beta LD A alpha RN P atm false f st).EOM s t (delta t)) y t)
    (hr : ∀ t ∈ Set.Icc a b, (y t).r ≠ 0) (hv : ∀ t ∈ Set.Icc a b, 0 < (y t).v)
    (hin : ∀ t ∈ Set.Icc a b, (y t).r * P.RP - P.RP ≤ P.hThres) :
    StrictAntiOn (fun s => jacobi P.J2 P.J3 P.OMEGAbar (y s).r (y s).phi (y s).v) (Set.Icc a b) := by
  have hd := fun t ht => C87_energy_and_heating name F hF P hP atm hatm m beta LD A alpha 1 f st hm hb hA one_pos
    (delta t) y t (hy t ht) (hr t ht) (hv t ht)
  apply strictAntiOn_of_deriv_neg (convex_Icc a b)
  · intro t ht
    obtain ⟨E', h, _⟩ := hd t ht
    exact h.continuousAt.continuousWithinAt
  · intro t ht
    rw [interior_Icc] at ht
    have ht' := Set.Ioo_subset_Icc_self ht
    obtain ⟨E', h, h2, _⟩ := hd t ht'
    rw [h.deriv]
    exact h2.mpr (hin t ht')

/-! ### C88 -/

/-- C88: through every state off the centre and the poles, with non-zero speed and `cos γ ≠ -0.01`, near which the
density and (for a drag curve) the drag are continuously differentiable, passes a solution of the equations of motion,
and any two solutions agree near it. -/
theorem C88_local_solution (V : Vehicle) (delta : ℝ) (s : FState) (t₀ : ℝ) (hcd : V.SmoothDrag s)
    (hr : s.r ≠ 0) (hv : s.v ≠ 0) (hphi : cos s.phi ≠ 0) (hg : cos s.gamma ≠ -0.01)
    (hrho : ContDiffAt ℝ 1 (V.planet.density V.atm) (s.r * V.planet.RP - V.planet.RP)) :
    (∃ y : ℝ → FState, y t₀ = s ∧ ∃ ε > 0, ∀ t ∈ Set.Ioo (t₀ - ε) (t₀ + ε),
      SolvesAt (fun x => V.EOM x t delta) y t) ∧
    ∀ y y' : ℝ → FState, y t₀ = s → y' t₀ = s →
      (∀ᶠ t in nhds t₀, SolvesAt (fun x => V.EOM x t delta) y t) →
      (∀ᶠ t in nhds t₀, SolvesAt (fun x => V.EOM x t delta) y' t) → ∀ᶠ t in nhds t₀, y t = y' t := by
  have hf := field_contDiffAt V delta s hcd hr hv hphi
    (fun h => hg (by norm_num at h ⊢; linarith)) hrho
  constructor
  · obtain ⟨α, h0, ε, hε, h1⟩ := hf.exists_forall_mem_closedBall_exists_eq_forall_mem_Ioo_hasDerivAt₀ t₀
    refine ⟨fun t => FState.ofR7 (α t), by simp only [h0, ofR7_toR7], ε, hε, fun t ht => ?_⟩
    rw [solvesAt_iff]
    exact h1 t ht
  · intro y y' h0 h0' h1 h1'
    obtain ⟨K, S, hS, hl⟩ := hf.exists_lipschitzOnWith
    have near : ∀ z : ℝ → FState, z t₀ = s → (∀ᶠ t in nhds t₀, SolvesAt (fun x => V.EOM x t delta) z t) →
        ∀ᶠ t in nhds t₀, HasDerivAt (fun t => (z t).toR7) (V.field delta ((z t).toR7)) t ∧ (z t).toR7 ∈ S := by
      intro z hz hzs
      have hc : ContinuousAt (fun t => (z t).toR7) t₀ := ((solvesAt_iff _ _ _).mp hzs.self_of_nhds).continuousAt
      have hS' : ∀ᶠ t in nhds t₀, (z t).toR7 ∈ S := hc (by simp only [hz]; exact hS)
      filter_upwards [hzs, hS'] with t h1 h2
      exact ⟨(solvesAt_iff _ _ _).mp h1, h2⟩
    have := ODE_solution_unique_of_eventually (v := fun _ => V.field delta) (s := fun _ => S)
      (Filter.Eventually.of_forall fun _ => hl) (near y h0 h1) (near y' h0' h1') (by rw [h0, h0'])
    filter_upwards [this] with t ht
    have := congrArg FState.ofR7 ht
    simpa using this

/-- C88: two flights of the same vehicle at the same bank angle that agree at one time agree at all times, as long as
the first one stays where the equations are smooth. -/
theorem C88_flight_unique (V : Vehicle) (delta : ℝ) (y y' : ℝ → FState)
    (a b t₀ : ℝ) (ht₀ : t₀ ∈ Set.Ioo a b) (hcd : ∀ t ∈ Set.Ioo a b, V.SmoothDrag (y t))
    (hy : ∀ t ∈ Set.Ioo a b, SolvesAt (fun x => V.EOM x t delta) y t)
    (hy' : ∀ t ∈ Set.Ioo a b, SolvesAt (fun x => V.EOM x t delta) y' t) (h0 : y t₀ = y' t₀)
    (hr : ∀ t ∈ Set.Ioo a b, (y t).r ≠ 0) (hv : ∀ t ∈ Set.Ioo a b, (y t).v ≠ 0)
    (hphi : ∀ t ∈ Set.Ioo a b, cos (y t).phi ≠ 0) (hg : ∀ t ∈ Set.Ioo a b, cos (y t).gamma ≠ -0.01)
    (hrho : ∀ t ∈ Set.Ioo a b,
      ContDiffAt ℝ 1 (V.planet.density V.atm) ((y t).r * V.planet.RP - V.planet.RP)) :
    ∀ t ∈ Set.Ioo a b, y t = y' t := by
  set u : Set ℝ := {t | ∀ᶠ s in nhds t, y s = y' s} with hu
  have hopen : IsOpen u := isOpen_setOfPred_eventually_nhds
  have hnear : ∀ t ∈ Set.Ioo a b, y t = y' t → t ∈ u := by
    intro t ht he
    have hev : ∀ᶠ s in nhds t, s ∈ Set.Ioo a b := isOpen_Ioo.mem_nhds ht
    exact (C88_local_solution V delta (y t) t (hcd t ht) (hr t ht) (hv t ht) (hphi t ht) (hg t ht) (hrho t ht)).2 y y' rfl
      he.symm (hev.mono fun s hs => hy s hs) (hev.mono fun s hs => hy' s hs)
  have hsub : Set.Ioo a b ⊆ u := by
    refine isPreconnected_Ioo.subset_of_closure_inter_subset hopen ⟨t₀, ht₀, hnear t₀ ht₀ h0⟩ ?_
    rintro t ⟨hc, ht⟩
    apply hnear t ht
    have c1 := ((solvesAt_iff _ _ _).mp (hy t ht)).continuousAt
    have c2 := ((solvesAt_iff _ _ _).mp (hy' t ht)).continuousAt
    have hfr : ∃ᶠ s in nhds t, (y s).toR7 = (y' s).toR7 := by
      rw [mem_closure_iff_frequently] at hc
      exact hc.mono fun s hs => by rw [(hs : ∀ᶠ x in nhds s, y x = y' x).self_of_nhds]
    have : (y t).toR7 = (y' t).toR7 := tendsto_nhds_unique_of_frequently_eq c1 c2 hfr
    simpa using congrArg FState.ofR7 this
  intro t ht
  exact (hsub ht : ∀ᶠ s in nhds t, y s = y' s).self_of_nhds

/-- C88: in every shipped atmosphere the density is continuously differentiable except at the reference altitude and at
the edge of the atmosphere; at the edge it jumps. -/
theorem C88_shipped_density_smooth (name : String) (F : AtmFile) (hF : (name, F) ∈ shippedFiles) (P : Planet)
    (hP : Planet.init name = .ok P) (atm : Atmosphere) (hatm : LoadedCubic P F.km (fileRows F) atm) :
    (∀ h, h ≠ 0 → h ≠ P.hThres → ContDiffAt ℝ 1 (P.density atm) h) ∧ ¬ ContinuousAt (P.density atm) P.hThres := by
  obtain ⟨_, _, _, _, _, hTr, hTS, hST, _⟩ := C01_planet_consistent name P hP
  have hT : 0 < P.hThres := by linarith
  constructor
  · intro h h0 h1
    rcases lt_or_gt_of_ne h1 with hlt | hgt
    · rcases lt_or_gt_of_ne h0 with hneg | hpos
      · refine contDiffAt_const (c := P.rho0) |>.congr_of_eventuallyEq ?_
        filter_upwards [Iio_mem_nhds hneg] with x hx
        rw [Planet.density, if_neg (fun hc => absurd hc.1 (not_le.mpr hx)),
          if_neg (not_lt.mpr ((le_of_lt hx).trans hT.le))]
      · obtain ⟨L, κ, e, D, top, hc, htop⟩ := shipped_dens hF hP
        have hf := hatm.2.2.1
        rw [dens_rows] at hf
        have hs := heightScale_pos F
        have hperm := hc.perm (heightScale F) (1 / 10 ^ F.dDec)
        have hlen := hc.checked.len
        have hmem : ∀ i < L.length, (heightScale F * absc L i, (1 / 10 ^ F.dDec : ℝ) * ordi L i) ∈
            F.rows.map fun r => (heightScale F * (r.1 : ℝ), (1 / 10 ^ F.dDec : ℝ) * (densCol r : ℝ)) := by
          intro i hi
          refine hperm.subset ?_
          rw [← scaled_getD, List.getD_eq_getElem _ _ (by simpa using hi)]
          exact List.getElem_mem _
        have hsm := interp_contDiffAt hf (t := h) (hmem 0 (by omega)) (hmem (L.length - 1) (by omega))
          (lt_of_le_of_lt (mul_nonpos_of_nonneg_of_nonpos hs.le hc.low) hpos)
          (lt_of_lt_of_le hlt (htop.trans (mul_le_mul_of_nonneg_left hc.high hs.le)))
        refine hsm.congr_of_eventuallyEq ?_
        filter_upwards [Ioo_mem_nhds hpos hlt] with x hx
        rw [Planet.density, if_pos ⟨hx.1.le, hx.2.le⟩]
    · refine contDiffAt_const (c := (0:ℝ)) |>.congr_of_eventuallyEq ?_
      filter_upwards [Ioi_mem_nhds hgt] with x hx
      rw [Planet.density, if_neg (fun hc => absurd hc.2 (not_le.mpr hx)), if_pos (show x > P.hThres from hx)]
  · intro hc
    have hp := (C85_density_positive name F hF P hP atm hatm P.hThres).mpr le_rfl
    have hev : ∀ᶠ x in nhds P.hThres, 0 < P.density atm x := hc.eventually (lt_mem_nhds hp)
    obtain ⟨ε, hε, h2⟩ := Metric.eventually_nhds_iff.mp hev
    have h3 := h2 (y := P.hThres + ε / 2) (by rw [Real.dist_eq]; rw [abs_lt]; constructor <;> linarith)
    have h4 := (C85_density_positive name F hF P hP atm hatm (P.hThres + ε / 2)).mp h3
    linarith

/-- C88: in every shipped atmosphere every flight state off the centre and the poles, with non-zero speed, `cos γ ≠
-0.01` and altitude different from zero and from the edge of the atmosphere lies on one and locally only one
trajectory. -/
theorem C88_shipped_local_solution (name : String) (F : AtmFile) (hF : (name, F) ∈ shippedFiles) (P : Planet)
    (hP : Planet.init name = .ok P) (atm : Atmosphere) (hatm : LoadedCubic P F.km (fileRows F) atm)
    (m beta LD A alpha RN : ℝ) (f : ℝ → ℝ) (st : InitState) (delta : ℝ) (s : FState) (t₀ : ℝ)
    (hr : s.r ≠ 0) (hv : s.v ≠ 0) (hphi : cos s.phi ≠ 0) (hg : cos s.gamma ≠ -0.01)
    (h0 : s.r * P.RP - P.RP ≠ 0) (h1 : s.r * P.RP - P.RP ≠ P.hThres) :
    (∃ y : ℝ → FState, y t₀ = s ∧ ∃ ε > 0, ∀ t ∈ Set.Ioo (t₀ - ε) (t₀ + ε),
      SolvesAt (fun x => (Vehicle.mk' m beta LD A alpha RN P atm false f st).EOM x t delta) y t) ∧
    ∀ y y' : ℝ → FState, y t₀ = s → y' t₀ = s →
      (∀ᶠ t in nhds t₀, SolvesAt (fun x => (Vehicle.mk' m beta LD A alpha RN P atm false f st).EOM x t delta) y t) →
      (∀ᶠ t in nhds t₀, SolvesAt (fun x => (Vehicle.mk' m beta LD A alpha RN P atm false f st).EOM x t delta) y' t) →
      ∀ᶠ t in nhds t₀, y t = y' t :=
  C88_local_solution (Vehicle.mk' m beta LD A alpha RN P atm false f st) delta s t₀
    (smoothDrag_const rfl s) hr hv hphi hg
    ((C88_shipped_density_smooth name F hF P hP atm hatm).1 _ h0 h1)

/-- C88: in every shipped atmosphere two flights of the same vehicle at the same bank angle that agree at one time agree
at all times, as long as the first one stays inside the atmosphere (or above it), off the poles, moving, and with
`cos γ ≠ -0.01`. -/
theorem C88_shipped_flight_unique (name : String) (F : AtmFile) (hF : (name, F) ∈ shippedFiles) (P : Planet)
    (hP : Planet.init name = .ok P) (atm : Atmosphere) (hatm : LoadedCubic P F.km (fileRows F) atm)
    (m beta LD A alpha RN : ℝ) (f : ℝ → ℝ) (st : InitState) (delta : ℝ) (y y' : ℝ → FState)
    (a b t₀ : ℝ) (ht₀ : t₀ ∈ Set.Ioo a b)
    (hy : ∀ t ∈ Set.Ioo a b,
      SolvesAt (fun x => (Vehicle.mk' m beta LD A alpha RN P atm false f st).EOM x t delta) y t)
    (hy' : ∀ t ∈ Set.Ioo a b,
      SolvesAt (fun x => (Vehicle.mk' m beta LD A alpha RN P atm false f st).EOM x t delta) y' t)
    (h0 : y t₀ = y' t₀) (hr : ∀ t ∈ Set.Ioo a b, (y t).r ≠ 0) (hv : ∀ t ∈ Set.Ioo a b, (y t).v ≠ 0)
    (hphi : ∀ t ∈ Set.Ioo a b, cos (y t).phi ≠ 0) (hg : ∀ t ∈ Set.Ioo a b, cos (y t).gamma ≠ -0.01)
    (hin : ∀ t ∈ Set.Ioo a b, (y t).r * P.RP - P.RP ≠ 0 ∧ (y t).r * P.RP - P.RP ≠ P.hThres) :
    ∀ t ∈ Set.Ioo a b, y t = y' t :=
  C88_flight_unique (Vehicle.mk' m beta LD A alpha RN P atm false f st) delta y y' a b t₀ ht₀
    (fun t _ => smoothDrag_const rfl (y t)) hy hy' h0 hr hv hphi hg (fun t ht => (C88_shipped_density_smooth name F hF P hP atm hatm).1 _ (hin t ht).1 (hin t ht).2)

/-- Case for `C88_shipped_local_solution`, `C88_local_solution` and `C88_shipped_density_smooth`, through which it is
obtained: a vehicle at 50 km altitude in the shipped atmosphere of Mars, flying
downwards at the reference speed, flies on for some time in the atmosphere. -/
theorem mars_flight : ∃ (P : Planet) (atm : Atmosphere), Planet.init "MARS" = .ok P ∧
    LoadedCubic P mars.km (fileRows mars) atm ∧
    ∀ (m beta LD A alpha RN : ℝ) (f : ℝ → ℝ) (st : InitState) (delta : ℝ),
      ∃ (y : ℝ → FState) (a b : ℝ), a < b ∧ 0 ∈ Set.Ioo a b ∧
        y 0 = ⟨1 + 50e3 / P.RP, 0, 0, 1, 0, -0.1, 0⟩ ∧
        (∀ t ∈ Set.Icc a b,
          SolvesAt (fun s => (Vehicle.mk' m beta LD A alpha RN P atm false f st).EOM s t delta) y t) ∧
        (∀ t ∈ Set.Icc a b, 0 < (y t).r) ∧ (∀ t ∈ Set.Icc a b, 0 < (y t).v) ∧
        (∀ t ∈ Set.Icc a b, 0 < (y t).r * P.RP - P.RP ∧ (y t).r * P.RP - P.RP ≤ P.hThres) ∧
        (∀ t ∈ Set.Icc a b, 0 < cos (y t).phi) ∧ (∀ t ∈ Set.Icc a b, 0 < cos (y t).gamma) := by
  obtain ⟨P, hP⟩ := (C01_planet_names "MARS").1.mpr (by simp [Spec.bodies])
  have hF : ("MARS", mars) ∈ shippedFiles := by simp [shippedFiles]
  obtain ⟨atm, hatm⟩ := (C85_loads "MARS" mars hF P hP).1
  refine ⟨P, atm, hP, hatm, ?_⟩
  intro m beta LD A alpha RN f st delta
  have hR : 0 < P.RP := (C01_planet_consistent "MARS" P hP).2.1
  have hT : P.hThres = 120e3 := by
    simp [Planet.init] at hP; subst hP; norm_num [Planet.withScales]
  have halt : (1 + 50e3 / P.RP) * P.RP - P.RP = 50e3 := by field_simp; ring
  have hcg : 0 < cos (-0.1 : ℝ) := cos_pos_of_mem_Ioo ⟨by linarith [one_le_pi_div_two], by linarith [one_le_pi_div_two]⟩
  have hr0 : 0 < 1 + 50e3 / P.RP := by positivity
  obtain ⟨⟨y, h0, ε, hε, hy⟩, -⟩ := C88_shipped_local_solution "MARS" mars hF P hP atm hatm m beta LD A alpha RN f st
    delta ⟨1 + 50e3 / P.RP, 0, 0, 1, 0, -0.1, 0⟩ 0 hr0.ne' one_ne_zero (by simp) (by simp only; intro h; linarith)
    (by simp only [halt]; norm_num) (by simp only [halt, hT]; norm_num)
  have hs := hy 0 ⟨by linarith, by linarith⟩
  have hrc := hs.r.continuousAt
  have hev : ∀ᶠ t in nhds (0 : ℝ), t ∈ Set.Ioo (0 - ε) (0 + ε) ∧ 0 < (y t).r ∧ 0 < (y t).v ∧
      0 < (y t).r * P.RP - P.RP ∧ (y t).r * P.RP - P.RP < P.hThres ∧ 0 < cos (y t).phi ∧ 0 < cos (y t).gamma := by
    have hra : ContinuousAt (fun t => (y t).r * P.RP - P.RP) 0 := (hrc.mul_const _).sub_const _
    have hpc : ContinuousAt (fun t => cos (y t).phi) 0 :=
      continuous_cos.continuousAt.comp hs.phi.continuousAt
    have hgc : ContinuousAt (fun t => cos (y t).gamma) 0 :=
      continuous_cos.continuousAt.comp hs.gamma.continuousAt
    have hI : ∀ᶠ t in nhds (0 : ℝ), t ∈ Set.Ioo (0 - ε) (0 + ε) := Ioo_mem_nhds (by linarith) (by linarith)
    refine hI.and ((hrc.eventually (lt_mem_nhds ?_)).and
      ((hs.v.continuousAt.eventually (lt_mem_nhds ?_)).and ((hra.eventually (lt_mem_nhds ?_)).and
      ((hra.eventually (gt_mem_nhds ?_)).and ((hpc.eventually (lt_mem_nhds ?_)).and
      (hgc.eventually (lt_mem_nhds ?_)))))))
    · simp only [h0]; exact hr0
    · simp only [h0]; exact one_pos
    · simp only [h0, halt]; norm_num
    · simp only [h0, halt, hT]; norm_num
    · simp only [h0]; simp
    · simp only [h0]; exact hcg
  obtain ⟨η, hη, h2⟩ := Metric.eventually_nhds_iff.mp hev
  have h3 : ∀ t ∈ Set.Icc (-(η / 2)) (η / 2), dist t 0 < η := by
    intro t ht
    rw [Real.dist_eq, sub_zero, abs_lt]
    constructor <;> linarith [ht.1, ht.2]
  exact ⟨y, -(η / 2), η / 2, by linarith, ⟨by linarith, by linarith⟩, h0, fun t ht => hy t (h2 (h3 t ht)).1,
    fun t ht => (h2 (h3 t ht)).2.1, fun t ht => (h2 (h3 t ht)).2.2.1,
    fun t ht => ⟨(h2 (h3 t ht)).2.2.2.1, (h2 (h3 t ht)).2.2.2.2.1.le⟩,
    fun t ht => (h2 (h3 t ht)).2.2.2.2.2.1, fun t ht => (h2 (h3 t ht)).2.2.2.2.2.2⟩

/-- Case for `C88_shipped_flight_unique` and `C88_flight_unique`: whatever other flight of the same vehicle starts in the
same state is the same flight, for some time. -/
example : ∃ (P : Planet) (atm : Atmosphere) (y : ℝ → FState) (c : ℝ), Planet.init "MARS" = .ok P ∧ 0 < c ∧
    y 0 = ⟨1 + 50e3 / P.RP, 0, 0, 1, 0, -0.1, 0⟩ ∧ ∀ y' : ℝ → FState, y' 0 = y 0 →
      (∀ t ∈ Set.Ioo (-c) c, SolvesAt (fun s => (Vehicle.mk' 1000 100 0.2 10 0 1 P atm false (fun _ => 0)
        ⟨0, 0, 0, 0, 0, 0, 0, 0⟩).EOM s t 0.5) y' t) → ∀ t ∈ Set.Ioo (-c) c, y t = y' t := by
  obtain ⟨P, atm, hP, hatm, h⟩ := mars_flight
  obtain ⟨y, a, b, hab, h0, hy0, hy, hr, hv, hin, hc, hg⟩ :=
    h 1000 100 0.2 10 0 1 (fun _ => 0) ⟨0, 0, 0, 0, 0, 0, 0, 0⟩ 0.5
  have hF : ("MARS", mars) ∈ shippedFiles := by simp [shippedFiles]
  -- the altitude starts at 50 km, so it stays below the edge of the atmosphere for some time
  have hT : P.hThres = 120e3 := by
    simp [Planet.init] at hP; subst hP; norm_num [Planet.withScales]
  have hR : 0 < P.RP := (C01_planet_consistent "MARS" P hP).2.1
  have hs := hy 0 ⟨h0.1.le, h0.2.le⟩
  have hra : ContinuousAt (fun t => (y t).r * P.RP - P.RP) 0 := (hs.r.continuousAt.mul_const _).sub_const _
  have hev : ∀ᶠ t in nhds (0 : ℝ), (y t).r * P.RP - P.RP < P.hThres ∧ t ∈ Set.Ioo a b := by
    refine (hra.eventually (gt_mem_nhds ?_)).and (isOpen_Ioo.mem_nhds h0)
    have halt : (1 + 50e3 / P.RP) * P.RP - P.RP = 50e3 := by field_simp; ring
    simp only [hy0, halt, hT]; norm_num
  obtain ⟨c, hc0, h2⟩ := Metric.eventually_nhds_iff.mp hev
  have h3 : ∀ t ∈ Set.Ioo (-c) c, (y t).r * P.RP - P.RP < P.hThres ∧ t ∈ Set.Icc a b := by
    intro t ht
    have := h2 (y := t) (by rw [Real.dist_eq, sub_zero, abs_lt]; exact ht)
    exact ⟨this.1, Set.Ioo_subset_Icc_self this.2⟩
  refine ⟨P, atm, y, c, hP, hc0, hy0, ?_⟩
  intro y' hy'0 hy'
  exact C88_shipped_flight_unique "MARS" mars hF P hP atm hatm 1000 100 0.2 10 0 1 _ _ 0.5 y y' (-c) c 0
    ⟨by linarith, hc0⟩ (fun t ht => hy t (h3 t ht).2) hy' hy'0.symm (fun t ht => (hr t (h3 t ht).2).ne')
    (fun t ht => (hv t (h3 t ht).2).ne') (fun t ht => (hc t (h3 t ht).2).ne')
    (fun t ht => by have := hg t (h3 t ht).2; intro h; linarith)
    (fun t ht => ⟨(hin t (h3 t ht).2).1.ne', (h3 t ht).1.ne⟩)

/-- Cases for `C18_energy_rate_is_minus_drag_power`, `C20_newton_partial` and `C17_gravity_is_gradient`: that flight,
banked by 0.5, at its start. -/
example : ∃ (P : Planet) (atm : Atmosphere) (y : ℝ → FState), Planet.init "MARS" = .ok P ∧
    HasDerivAt (fun s => jacobi P.J2 P.J3 P.OMEGAbar (y s).r (y s).phi (y s).v)
      (-(P.RP * P.rho atm ((y 0).r * P.RP) (y 0).theta (y 0).phi * (y 0).v ^ 3 / (2 * 100))) 0 ∧
    ∃ Acc, HasDerivV3 (fun s => vel (y s).theta (y s).phi (y s).v (y s).psi (y s).gamma) Acc 0 := by
  obtain ⟨P, atm, hP, hatm, h⟩ := mars_flight
  obtain ⟨y, a, b, hab, h0, -, hy, hr, hv, hin, hc, hg⟩ :=
    h 1000 100 0.2 10 0 1 (fun _ => 0) ⟨0, 0, 0, 0, 0, 0, 0, 0⟩ 0.5
  have m0 : (0:ℝ) ∈ Set.Icc a b := ⟨h0.1.le, h0.2.le⟩
  obtain ⟨g1, g2, -⟩ := C17_gravity_is_gradient
    (Vehicle.mk' 1000 100 0.2 10 0 1 P atm false (fun _ => 0) ⟨0, 0, 0, 0, 0, 0, 0, 0⟩) (y 0).r (y 0).phi (hr 0 m0).ne'
  obtain ⟨Acc, hA, -⟩ := C20_newton_partial "MARS" P hP 1000 100 0.2 10 0 1 atm _ _ (by norm_num) (by norm_num)
    (by norm_num) 0.5 y 0 (hy 0 m0) (hr 0 m0).ne' (hc 0 m0).ne' (hv 0 m0).ne' (by have := hg 0 m0; positivity) _ _ g1 g2
  exact ⟨P, atm, y, hP, C18_energy_rate_is_minus_drag_power "MARS" P hP 1000 100 0.2 10 0 1 atm _ _ (by norm_num)
    (by norm_num) (by norm_num) 0.5 y 0 (hy 0 m0) (hr 0 m0).ne', Acc, hA⟩

/-- Cases for `C87_energy_strictly_decreases`, `C87_energy_and_heating` and `C18_energy_never_increases`: that flight
loses energy. -/
example : ∃ (P : Planet) (y : ℝ → FState) (a b : ℝ), a < b ∧
    StrictAntiOn (fun s => jacobi P.J2 P.J3 P.OMEGAbar (y s).r (y s).phi (y s).v) (Set.Icc a b) := by
  obtain ⟨P, atm, hP, hatm, h⟩ := mars_flight
  obtain ⟨y, a, b, hab, -, -, hy, hr, hv, hin, -⟩ := h 1000 100 0.2 10 0 1 (fun _ => 0) ⟨0, 0, 0, 0, 0, 0, 0, 0⟩ 0
  exact ⟨P, y, a, b, hab, C87_energy_strictly_decreases "MARS" mars (by simp [shippedFiles]) P hP atm hatm 1000 100 0.2
    10 0 1 _ _ (by norm_num) (by norm_num) (by norm_num) (fun _ => 0) y a b hy (fun t ht => (hr t ht).ne') hv
    (fun t ht => (hin t ht).2)⟩

end AMAT.Props
