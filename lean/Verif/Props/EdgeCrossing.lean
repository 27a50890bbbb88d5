import Mathlib.Analysis.Calculus.FDeriv.Extend
import Verif.Props.CurveFlight

/-
Property C88 at the edge of the atmosphere: the right-hand side of the equations of motion jumps there, so no flight is
differentiable while it crosses the edge, but a flight that crosses it climbing or descending does so in only one way.
-/

noncomputable section

open Real

namespace AMAT.Props

open Real AMAT AMAT.Spec AMAT.Data AMAT.Spline AMAT.Lits AMAT.Piecewise

/-! ### Flights between two times -/

theorem flight_mono {F : ℝ → FState → FState} {y : ℝ → FState} {a b a' b' : ℝ} {S : Finset ℝ}
    (hy : SwitchedFlight F y a b S) (ha : a ≤ a') (hb : b' ≤ b) : SwitchedFlight F y a' b' S := by
  have hs := Set.Icc_subset_Icc ha hb
  exact ⟨hy.r.mono hs, hy.theta.mono hs, hy.phi.mono hs, hy.v.mono hs, hy.psi.mono hs, hy.gamma.mono hs,
    hy.drange.mono hs, fun t ht => hy.solves t ⟨ha.trans_lt ht.1, ht.2.trans_le hb⟩⟩

theorem flight_right {F : ℝ → FState → FState} {y : ℝ → FState} {a b : ℝ} {S : Finset ℝ}
    (hy : SwitchedFlight F y a b S) (hab : a < b) :
    Filter.Tendsto (fun t => (y t).toR7) (nhdsWithin a (Set.Ioi a)) (nhds (y a).toR7) := by
  have h := flight_continuousOn hy a ⟨le_rfl, hab.le⟩
  refine h.mono_left ?_
  refine nhdsWithin_le_of_mem ?_
  filter_upwards [Ioc_mem_nhdsGT hab] with s hs using ⟨hs.1.le, hs.2⟩

/-- A flight that climbs at one time is higher at all times shortly after. -/
theorem flight_climbs {F : ℝ → FState → FState} {y : ℝ → FState} {a b : ℝ} {S : Finset ℝ}
    (hF : ∀ t x, (F t x).r = x.v * sin x.gamma)
    (hy : SwitchedFlight F y a b S) (hab : a < b) (hs : 0 < (y a).v * sin (y a).gamma) :
    ∀ᶠ t in nhdsWithin a (Set.Ioi a), (y a).r < (y t).r := by
  have hc : Continuous fun x : R7 => x.2.2.2.1 * sin x.2.2.2.2.2.1 := by fun_prop
  have h1 : ∀ᶠ t in nhdsWithin a (Set.Ioi a), 0 < (y t).v * sin (y t).gamma :=
    ((hc.tendsto (y a).toR7).comp (flight_right hy hab)).eventually (lt_mem_nhds hs)
  have h2 : ∀ᶠ t in nhdsWithin a (Set.Ioi a), t ≤ b := by
    filter_upwards [Ioc_mem_nhdsGT hab] with s hs using hs.2
  obtain ⟨u, hu, hall⟩ := (mem_nhdsGT_iff_exists_Ioc_subset).mp (h1.and h2)
  have hub : u ≤ b := (hall ⟨hu, le_rfl⟩).2
  have hanti := strictAntiOn_off (fun t => -(y t).r) S a u
    ((hy.r.mono (Set.Icc_subset_Icc_right hub)).neg) fun t ht hS => by
      have hd := (hy.solves t ⟨ht.1, ht.2.trans_le hub⟩ hS).r
      rw [hF] at hd
      refine ⟨_, ?_, hd.fun_neg⟩
      have := (hall ⟨ht.1, ht.2.le⟩).1
      linarith
  refine (mem_nhdsGT_iff_exists_Ioc_subset).mpr ⟨u, hu, fun t ht => ?_⟩
  have := hanti ⟨le_rfl, le_of_lt hu⟩ ⟨ht.1.le, ht.2⟩ ht.1
  simp only [neg_lt_neg_iff] at this
  exact this

/-- A flight that descends at one time is lower at all times shortly after. -/
theorem flight_descends {F : ℝ → FState → FState} {y : ℝ → FState} {a b : ℝ} {S : Finset ℝ}
    (hF : ∀ t x, (F t x).r = x.v * sin x.gamma)
    (hy : SwitchedFlight F y a b S) (hab : a < b) (hs : (y a).v * sin (y a).gamma < 0) :
    ∀ᶠ t in nhdsWithin a (Set.Ioi a), (y t).r < (y a).r := by
  have hc : Continuous fun x : R7 => x.2.2.2.1 * sin x.2.2.2.2.2.1 := by fun_prop
  have h1 : ∀ᶠ t in nhdsWithin a (Set.Ioi a), (y t).v * sin (y t).gamma < 0 :=
    ((hc.tendsto (y a).toR7).comp (flight_right hy hab)).eventually (gt_mem_nhds hs)
  have h2 : ∀ᶠ t in nhdsWithin a (Set.Ioi a), t ≤ b := by
    filter_upwards [Ioc_mem_nhdsGT hab] with s hs using hs.2
  obtain ⟨u, hu, hall⟩ := (mem_nhdsGT_iff_exists_Ioc_subset).mp (h1.and h2)
  have hub : u ≤ b := (hall ⟨hu, le_rfl⟩).2
  have hanti := strictAntiOn_off (fun t => (y t).r) S a u
    (hy.r.mono (Set.Icc_subset_Icc_right hub)) fun t ht hS => by
      have hd := (hy.solves t ⟨ht.1, ht.2.trans_le hub⟩ hS).r
      rw [hF] at hd
      exact ⟨_, (hall ⟨ht.1, ht.2.le⟩).1, hd⟩
  exact (mem_nhdsGT_iff_exists_Ioc_subset).mpr
    ⟨u, hu, fun t ht => hanti ⟨le_rfl, le_of_lt hu⟩ ⟨ht.1.le, ht.2⟩ ht.1⟩

/-! ### Equations that are smooth from one side -/

/-- The equations of motion of `V` at the states with property `Q` are those of a vehicle whose right-hand side is
smooth at `s`, and every flight that leaves `s` has the property for some time. -/
structure SmoothAhead (V : Vehicle) (s : FState) (W : Vehicle) (Q : FState → Prop) : Prop where
  smooth : ∀ d, ContDiffAt ℝ 1 (W.field d) s.toR7
  same : ∀ x t d, Q x → V.EOM x t d = W.EOM x t d
  ahead : ∀ (F : ℝ → FState → FState) (y : ℝ → FState) (a b : ℝ) (S : Finset ℝ),
    (∀ t x, (F t x).r = x.v * sin x.gamma) → SwitchedFlight F y a b S → a < b → y a = s →
    ∀ᶠ t in nhdsWithin a (Set.Ioi a), Q (y t)

theorem smoothAhead_unique (V : Vehicle) (delta : ℝ → ℝ) (y y' : ℝ → FState) (a b : ℝ) (S S' : Finset ℝ)
    (hpc : ∀ t ∈ Set.Ico a b, ∃ d, ∀ᶠ s in nhdsWithin t (Set.Ioi t), delta s = d)
    (hy : SwitchedFlight (fun t s => V.EOM s t (delta t)) y a b S)
    (hy' : SwitchedFlight (fun t s => V.EOM s t (delta t)) y' a b S') (h0 : y a = y' a)
    (hloc : ∀ t ∈ Set.Ico a b, ∃ W Q, SmoothAhead V (y t) W Q) :
    ∀ t ∈ Set.Icc a b, y t = y' t := by
  have c1 := flight_continuousOn hy
  have c2 := flight_continuousOn hy'
  set f : ℝ → R7 := fun t => (y t).toR7 - (y' t).toR7 with hf
  have cf : ContinuousOn f (Set.Icc a b) := c1.sub c2
  have hclosed : IsClosed ({t | f t = 0} ∩ Set.Icc a b) := by
    rw [Set.inter_comm]
    exact cf.preimage_isClosed_of_isClosed isClosed_Icc isClosed_singleton
  have ha : a ∈ {t | f t = 0} := by simp [hf, h0]
  have hsub := hclosed.Icc_subset_of_forall_mem_nhdsWithin ha ?_
  · intro t ht
    have h1 : f t = 0 := hsub ht
    have h2 : (y t).toR7 = (y' t).toR7 := sub_eq_zero.mp h1
    simpa using congrArg FState.ofR7 h2
  · rintro t ⟨hft, ht⟩
    have hft' : (y t).toR7 = (y' t).toR7 := sub_eq_zero.mp hft
    have hyt : y' t = y t := by simpa using (congrArg FState.ofR7 hft').symm
    obtain ⟨d, hd⟩ := hpc t ht
    obtain ⟨W, Q, hW⟩ := hloc t ht
    obtain ⟨K, U, hU, hl⟩ := (hW.smooth d).exists_lipschitzOnWith
    have m1 := flight_mono hy ht.1 le_rfl
    have m2 := flight_mono hy' ht.1 le_rfl
    have q1 := hW.ahead _ _ _ _ _ (fun _ _ => rfl) m1 ht.2 rfl
    have q2 := hW.ahead _ _ _ _ _ (fun _ _ => rfl) m2 ht.2 hyt
    have n1 : ∀ᶠ s in nhdsWithin t (Set.Ioi t), (y s).toR7 ∈ U := flight_right m1 ht.2 hU
    have n2 : ∀ᶠ s in nhdsWithin t (Set.Ioi t), (y' s).toR7 ∈ U := flight_right m2 ht.2 (by rw [hyt]; exact hU)
    have n3 : ∀ᶠ s in nhdsWithin t (Set.Ioi t), s ≤ b := by
      filter_upwards [Ioc_mem_nhdsGT ht.2] with s hs using hs.2
    obtain ⟨u, hu, hall⟩ := (mem_nhdsGT_iff_exists_Ioc_subset).mp ((hd.and (q1.and q2)).and (n1.and (n2.and n3)))
    have hub : u ≤ b := (hall ⟨hu, le_rfl⟩).2.2.2
    have hIcc : Set.Icc t u ⊆ Set.Icc a b := Set.Icc_subset_Icc ht.1 hub
    have hz := zero_off f (fun s => W.field d (y s).toR7 - W.field d (y' s).toR7) K (S ∪ S') t u (cf.mono hIcc) hft ?_
    · exact (mem_nhdsGT_iff_exists_Ioc_subset).mpr ⟨u, hu, fun s hs => hz s ⟨hs.1.le, hs.2⟩⟩
    · intro s hs hS
      rw [Finset.mem_union, not_or] at hS
      obtain ⟨⟨e1, k1, k2⟩, e2, e3, -⟩ := hall ⟨hs.1, hs.2.le⟩
      have hsab : s ∈ Set.Ioo a b := ⟨lt_of_le_of_lt ht.1 hs.1, lt_of_lt_of_le hs.2 hub⟩
      have s1 := (solvesAt_iff _ _ _).mp (hy.solves s hsab hS.1)
      have s2 := (solvesAt_iff _ _ _).mp (hy'.solves s hsab hS.2)
      rw [show delta s = d from e1, hW.same _ _ _ k1] at s1
      rw [show delta s = d from e1, hW.same _ _ _ k2] at s2
      exact ⟨s1.sub s2, (lipschitzOnWith_iff_norm_sub_le.mp hl) e2 e3⟩

/-- From a state ahead of which the equations are smooth a flight goes on for some time. -/
theorem smoothAhead_exists {V W : Vehicle} {s : FState} {Q : FState → Prop} (hW : SmoothAhead V s W Q) (delta t₀ : ℝ) :
    ∃ (y : ℝ → FState) (b : ℝ), t₀ < b ∧ y t₀ = s ∧ (∀ t ∈ Set.Ioc t₀ b, Q (y t)) ∧
      SwitchedFlight (fun t x => V.EOM x t delta) y t₀ b ∅ := by
  obtain ⟨α, h0, ε, hε, h1⟩ :=
    (hW.smooth delta).exists_forall_mem_closedBall_exists_eq_forall_mem_Ioo_hasDerivAt₀ t₀
  set y : ℝ → FState := fun t => FState.ofR7 (α t) with hy
  have hyt : y t₀ = s := by simp only [hy, h0, ofR7_toR7]
  have hsol : ∀ t ∈ Set.Ioo (t₀ - ε) (t₀ + ε), SolvesAt (fun x => W.EOM x t delta) y t := by
    intro t ht
    rw [solvesAt_iff]
    exact h1 t ht
  have hfl : SwitchedFlight (fun t x => W.EOM x t delta) y t₀ (t₀ + ε / 2) ∅ := by
    have hin : ∀ t ∈ Set.Icc t₀ (t₀ + ε / 2), t ∈ Set.Ioo (t₀ - ε) (t₀ + ε) :=
      fun t ht => ⟨by linarith [ht.1], by linarith [ht.2]⟩
    exact ⟨fun t ht => (hsol t (hin t ht)).r.continuousAt.continuousWithinAt,
      fun t ht => (hsol t (hin t ht)).theta.continuousAt.continuousWithinAt,
      fun t ht => (hsol t (hin t ht)).phi.continuousAt.continuousWithinAt,
      fun t ht => (hsol t (hin t ht)).v.continuousAt.continuousWithinAt,
      fun t ht => (hsol t (hin t ht)).psi.continuousAt.continuousWithinAt,
      fun t ht => (hsol t (hin t ht)).gamma.continuousAt.continuousWithinAt,
      fun t ht => (hsol t (hin t ht)).drange.continuousAt.continuousWithinAt,
      fun t ht _ => hsol t (hin t ⟨ht.1.le, ht.2.le⟩)⟩
  have hq := hW.ahead _ _ _ _ _ (fun _ _ => rfl) hfl (by linarith) hyt
  have n3 : ∀ᶠ s in nhdsWithin t₀ (Set.Ioi t₀), s ≤ t₀ + ε / 2 := by
    filter_upwards [Ioc_mem_nhdsGT (show t₀ < t₀ + ε / 2 by linarith)] with s hs using hs.2
  obtain ⟨u, hu, hall⟩ := (mem_nhdsGT_iff_exists_Ioc_subset).mp (hq.and n3)
  have m := flight_mono hfl le_rfl (hall ⟨hu, le_rfl⟩).2
  refine ⟨y, u, hu, hyt, fun t ht => (hall ht).1, m.r, m.theta, m.phi, m.v, m.psi, m.gamma, m.drange, fun t ht hS => ?_⟩
  have := m.solves t ht hS
  rw [solvesAt_iff] at this ⊢
  rw [hW.same _ _ _ (hall ⟨ht.1, ht.2.le⟩).1]
  exact this

/-! ### The edge of a shipped atmosphere -/

/-- The vehicle in another atmosphere with another edge. -/
def inAtmosphere (V : Vehicle) (h : ℝ) (a : Atmosphere) : Vehicle :=
  { V with planet := { V.planet with hThres := h }, atm := a }

theorem inAtmosphere_vacuum (V : Vehicle) (h : ℝ) (a : Atmosphere) {x : ℝ} (hx : h < x) :
    (inAtmosphere V h a).planet.density a x = 0 := by
  have hx' : x > (inAtmosphere V h a).planet.hThres := hx
  rw [Planet.density, if_neg (fun hc => absurd hc.2 (not_le.mpr hx')), if_pos hx']

theorem inAtmosphere_EOM (V : Vehicle) (h : ℝ) (a : Atmosphere) (x : FState) (t d : ℝ)
    (h1 : (inAtmosphere V h a).planet.density a (x.r * V.planet.RP - V.planet.RP) =
      V.planet.density V.atm (x.r * V.planet.RP - V.planet.RP))
    (h2 : V.planet.density V.atm (x.r * V.planet.RP - V.planet.RP) = 0 ∨
      a.sonicInt (x.r * V.planet.RP - V.planet.RP) = V.atm.sonicInt (x.r * V.planet.RP - V.planet.RP)) :
    V.EOM x t d = (inAtmosphere V h a).EOM x t d := by
  have hρ : (inAtmosphere V h a).planet.rhobar a x.r x.theta x.phi = V.planet.rhobar V.atm x.r x.theta x.phi := by
    change (inAtmosphere V h a).planet.density a (x.r * V.planet.RP - V.planet.RP) / V.planet.rho0 =
      V.planet.density V.atm (x.r * V.planet.RP - V.planet.RP) / V.planet.rho0
    rw [h1]
  have hL : (inAtmosphere V h a).Lbar x.r x.theta x.phi x.v = V.Lbar x.r x.theta x.phi x.v := by
    unfold Vehicle.Lbar
    rw [show (inAtmosphere V h a).atm = a from rfl, hρ]
    rfl
  have hD : (inAtmosphere V h a).Dbar x.r x.theta x.phi x.v = V.Dbar x.r x.theta x.phi x.v := by
    unfold Vehicle.Dbar
    rw [show (inAtmosphere V h a).atm = a from rfl, hρ]
    rcases h2 with h2 | h2
    · have : V.planet.rhobar V.atm x.r x.theta x.phi = 0 := by
        change V.planet.density V.atm (x.r * V.planet.RP - V.planet.RP) / V.planet.rho0 = 0
        rw [h2, zero_div]
      rw [this]
      ring
    · have : (inAtmosphere V h a).machScalar (x.r * (inAtmosphere V h a).planet.RP)
          (x.v * (inAtmosphere V h a).planet.Vref) = V.machScalar (x.r * V.planet.RP) (x.v * V.planet.Vref) := by
        change x.v * V.planet.Vref / a.sonicInt (x.r * V.planet.RP - V.planet.RP) =
          x.v * V.planet.Vref / V.atm.sonicInt (x.r * V.planet.RP - V.planet.RP)
        rw [h2]
      rw [this]
      rfl
  unfold Vehicle.EOM Vehicle.a_sbar Vehicle.a_nbar Vehicle.a_wbar
  rw [hL, hD]
  rfl

/-- The state from which a flight is looked at: off the poles, moving, `cos γ ≠ -0.01`, above the reference altitude,
and not moving horizontally if exactly at the edge of the atmosphere. -/
structure Departure (P : Planet) (s : FState) : Prop where
  v : s.v ≠ 0
  phi : cos s.phi ≠ 0
  gamma : cos s.gamma ≠ -0.01
  alt : 0 < s.r * P.RP - P.RP
  edge : s.r * P.RP - P.RP = P.hThres → sin s.gamma ≠ 0

theorem departure_r {name : String} {P : Planet} (hP : Planet.init name = .ok P) {s : FState} (hs : Departure P s) :
    s.r ≠ 0 := by
  intro h
  have := hs.alt
  rw [h] at this
  have hR : 0 < P.RP := (C01_planet_consistent name P hP).2.1
  linarith

theorem field_smooth {V : Vehicle} {s : FState} (hcd : V.SmoothDrag s) (hr : s.r ≠ 0) (hv : s.v ≠ 0)
    (hphi : cos s.phi ≠ 0) (hg : cos s.gamma ≠ -0.01)
    (hrho : ContDiffAt ℝ 1 (V.planet.density V.atm) (s.r * V.planet.RP - V.planet.RP)) (d : ℝ) :
    ContDiffAt ℝ 1 (V.field d) s.toR7 :=
  field_contDiffAt V d s hcd hr hv hphi (fun h => hg (by norm_num at h ⊢; linarith)) hrho

theorem edge_r {name : String} {P : Planet} (hP : Planet.init name = .ok P) {s : FState}
    (he : s.r * P.RP - P.RP = P.hThres) : s.r ≠ 0 := by
  intro h
  obtain ⟨_, hR, _, _, _, hTr, hTS, hST, _⟩ := C01_planet_consistent name P hP
  rw [h] at he
  linarith

/-- The vacuum above the edge, continued below it. -/
theorem above_smooth_at {name : String} {P : Planet} (hP : Planet.init name = .ok P) (atm : Atmosphere)
    (m beta LD A alpha RN : ℝ) (u : Bool) (f : ℝ → ℝ) (st : InitState) {s : FState} (hv : s.v ≠ 0) (hphi : cos s.phi ≠ 0)
    (hg : cos s.gamma ≠ -0.01) (he : s.r * P.RP - P.RP = P.hThres) (d : ℝ) :
    ContDiffAt ℝ 1 ((inAtmosphere (Vehicle.mk' m beta LD A alpha RN P atm u f st) (P.hThres - 1) atm).field d)
      s.toR7 := by
  have hzero : ∀ x, P.hThres - 1 < x →
      (inAtmosphere (Vehicle.mk' m beta LD A alpha RN P atm u f st) (P.hThres - 1) atm).planet.density atm x = 0 := by
    exact fun x hx => inAtmosphere_vacuum _ _ _ hx
  refine field_smooth ?_ (edge_r hP he) hv hphi hg ?_ d
  · intro _
    refine contDiffAt_const (c := (0:ℝ)) |>.congr_of_eventuallyEq ?_
    have hx : ContinuousAt (fun p : ℝ × ℝ => p.1 * P.RP - P.RP) (s.r, s.v) := by fun_prop
    have : ∀ᶠ p : ℝ × ℝ in nhds (s.r, s.v), P.hThres - 1 < p.1 * P.RP - P.RP :=
      hx.eventually (lt_mem_nhds (by simp only [he]; linarith))
    filter_upwards [this] with p hp
    change (inAtmosphere (Vehicle.mk' m beta LD A alpha RN P atm u f st) (P.hThres - 1) atm).planet.density atm
      (p.1 * P.RP - P.RP) * _ = 0
    rw [hzero _ hp, zero_mul]
  · change ContDiffAt ℝ 1 ((inAtmosphere (Vehicle.mk' m beta LD A alpha RN P atm u f st)
      (P.hThres - 1) atm).planet.density atm) (s.r * P.RP - P.RP)
    refine contDiffAt_const (c := (0:ℝ)) |>.congr_of_eventuallyEq ?_
    filter_upwards [Ioi_mem_nhds (show P.hThres - 1 < s.r * P.RP - P.RP by rw [he]; linarith)] with x hx
    exact hzero x hx

theorem above_smooth {name : String} {P : Planet} (hP : Planet.init name = .ok P) (atm : Atmosphere)
    (m beta LD A alpha RN : ℝ) (u : Bool) (f : ℝ → ℝ) (st : InitState) {s : FState}
    (hs : Departure P s) (he : s.r * P.RP - P.RP = P.hThres) (d : ℝ) :
    ContDiffAt ℝ 1 ((inAtmosphere (Vehicle.mk' m beta LD A alpha RN P atm u f st) (P.hThres - 1) atm).field d)
      s.toR7 :=
  above_smooth_at hP atm m beta LD A alpha RN u f st hs.v hs.phi hs.gamma he d

/-- The atmosphere below the edge, continued above it. -/
theorem below_smooth_at {name : String} {F : AtmFile} (hF : (name, F) ∈ shippedFiles) {P : Planet}
    (hP : Planet.init name = .ok P) {atm : Atmosphere} (hatm : LoadedCubic P F.km (fileRows F) atm)
    (m beta LD A alpha RN : ℝ) (u : Bool) (f : ℝ → ℝ) (st : InitState) :
    ∃ (a : Atmosphere) (c : ℝ), 0 ≤ c ∧ c < P.hThres ∧
      (∀ x, c ≤ x → x ≤ P.hThres → a.densityInt x = atm.densityInt x ∧ a.sonicInt x = atm.sonicInt x) ∧
      (∀ x d t, c ≤ x.r * P.RP - P.RP → x.r * P.RP - P.RP ≤ P.hThres →
        (Vehicle.mk' m beta LD A alpha RN P atm u f st).EOM x t d =
          (inAtmosphere (Vehicle.mk' m beta LD A alpha RN P atm u f st) (P.hThres + 1) a).EOM x t d) ∧
      ∀ s : FState, s.v ≠ 0 → cos s.phi ≠ 0 → cos s.gamma ≠ -0.01 → s.r * P.RP - P.RP = P.hThres →
        (u = true → ContDiffAt ℝ 1 f (s.v * P.Vref / atm.sonicInt (s.r * P.RP - P.RP))) → ∀ d, ContDiffAt ℝ 1
        ((inAtmosphere (Vehicle.mk' m beta LD A alpha RN P atm u f st) (P.hThres + 1) a).field d) s.toR7 := by
  obtain ⟨_, _, _, _, _, hTr, hTS, hST, _⟩ := C01_planet_consistent name P hP
  have hT : 0 < P.hThres := by linarith
  obtain ⟨r, hr, r', hr', e0, e1⟩ := table_covers hF hP
  obtain ⟨p, hp, c₁, hc₁, hpe⟩ := interp_left_polynomial hatm.2.2.1 (t := P.hThres) (List.mem_map.mpr ⟨r, hr, rfl⟩)
    (List.mem_map.mpr ⟨r', hr', rfl⟩) (lt_of_le_of_lt e0 hT) e1
  obtain ⟨q, hq, c₂, hc₂, hqe⟩ := interp_left_polynomial hatm.2.2.2 (t := P.hThres) (List.mem_map.mpr ⟨r, hr, rfl⟩)
    (List.mem_map.mpr ⟨r', hr', rfl⟩) (lt_of_le_of_lt e0 hT) e1
  set a : Atmosphere := { atm with densityInt := p, sonicInt := q } with ha
  set V := Vehicle.mk' m beta LD A alpha RN P atm u f st with hV
  have hden : ∀ x, 0 ≤ x → x ≤ P.hThres + 1 → (inAtmosphere V (P.hThres + 1) a).planet.density a x = p x := by
    intro x h0 h1
    rw [Planet.density, if_pos (show _ ∧ x ≤ (inAtmosphere V (P.hThres + 1) a).planet.hThres from ⟨h0, h1⟩)]
  have hagree : ∀ x, max 0 (max c₁ c₂) ≤ x → x ≤ P.hThres →
      a.densityInt x = atm.densityInt x ∧ a.sonicInt x = atm.sonicInt x := fun x hx h1 =>
    ⟨(hpe x ((le_max_left _ _).trans ((le_max_right _ _).trans hx)) h1).symm,
      (hqe x ((le_max_right _ _).trans ((le_max_right _ _).trans hx)) h1).symm⟩
  refine ⟨a, max 0 (max c₁ c₂), le_max_left _ _, max_lt hT (max_lt hc₁ hc₂), hagree, ?_, ?_⟩
  · intro x d t h0 h1
    have h00 : 0 ≤ x.r * P.RP - P.RP := (le_max_left _ _).trans h0
    refine inAtmosphere_EOM V _ a x t d ?_ (Or.inr (hagree _ h0 h1).2)
    change (inAtmosphere V (P.hThres + 1) a).planet.density a (x.r * P.RP - P.RP) = P.density atm (x.r * P.RP - P.RP)
    rw [hden _ h00 (by linarith), Planet.density, if_pos ⟨h00, h1⟩]
    exact (hagree _ h0 h1).1
  · intro s hv hphi hg he hf d
    have hnear : Set.Ioo 0 (P.hThres + 1) ∈ nhds (s.r * P.RP - P.RP) := by
      rw [he]; exact Ioo_mem_nhds hT (by linarith)
    have hds : ContDiffAt ℝ 1 ((inAtmosphere V (P.hThres + 1) a).planet.density a) (s.r * P.RP - P.RP) := by
      refine hp.contDiffAt.congr_of_eventuallyEq ?_
      filter_upwards [hnear] with x hx
      exact hden x hx.1.le hx.2.le
    refine field_smooth ?_ (edge_r hP he) hv hphi hg hds d
    intro hu
    have hu' : u = true := hu
    change ContDiffAt ℝ 1 (fun z : ℝ × ℝ => (inAtmosphere V (P.hThres + 1) a).planet.density a (z.1 * P.RP - P.RP) *
      f (z.2 * P.Vref / q (z.1 * P.RP - P.RP))) (s.r, s.v)
    have hx : ContDiffAt ℝ 1 (fun p : ℝ × ℝ => p.1 * P.RP - P.RP) (s.r, s.v) := by fun_prop
    have hpos := (C99_positive name F hF P hP atm hatm).2.2 (s.r * P.RP - P.RP)
    have hqs : q (s.r * P.RP - P.RP) = atm.sonicInt (s.r * P.RP - P.RP) := by
      rw [he]; exact (hqe _ hc₂.le le_rfl).symm
    have a1 : ContDiffAt ℝ 1 (fun z : ℝ × ℝ =>
        (inAtmosphere V (P.hThres + 1) a).planet.density a (z.1 * P.RP - P.RP)) (s.r, s.v) :=
      ContDiffAt.comp (s.r, s.v) (g := (inAtmosphere V (P.hThres + 1) a).planet.density a) hds hx
    have a2 : ContDiffAt ℝ 1 (fun p : ℝ × ℝ => q (p.1 * P.RP - P.RP)) (s.r, s.v) :=
      ContDiffAt.comp (s.r, s.v) (g := q) hq.contDiffAt hx
    have a3 : ContDiffAt ℝ 1 (fun p : ℝ × ℝ => p.2 * P.Vref / q (p.1 * P.RP - P.RP)) (s.r, s.v) :=
      ContDiffAt.div (by fun_prop) a2 (by simp only [hqs]; exact hpos.ne')
    refine a1.mul (ContDiffAt.comp (s.r, s.v) (g := f) ?_ a3)
    simp only [hqs]
    exact hf hu'

theorem below_smooth {name : String} {F : AtmFile} (hF : (name, F) ∈ shippedFiles) {P : Planet}
    (hP : Planet.init name = .ok P) {atm : Atmosphere} (hatm : LoadedCubic P F.km (fileRows F) atm)
    (m beta LD A alpha RN : ℝ) (u : Bool) (f : ℝ → ℝ) (st : InitState) :
    ∃ (a : Atmosphere) (c : ℝ), 0 ≤ c ∧ c < P.hThres ∧
      (∀ x, c ≤ x → x ≤ P.hThres → a.densityInt x = atm.densityInt x ∧ a.sonicInt x = atm.sonicInt x) ∧
      (∀ x d t, c ≤ x.r * P.RP - P.RP → x.r * P.RP - P.RP ≤ P.hThres →
        (Vehicle.mk' m beta LD A alpha RN P atm u f st).EOM x t d =
          (inAtmosphere (Vehicle.mk' m beta LD A alpha RN P atm u f st) (P.hThres + 1) a).EOM x t d) ∧
      ∀ s, Departure P s → s.r * P.RP - P.RP = P.hThres →
        (u = true → ContDiffAt ℝ 1 f (s.v * P.Vref / atm.sonicInt (s.r * P.RP - P.RP))) → ∀ d, ContDiffAt ℝ 1
        ((inAtmosphere (Vehicle.mk' m beta LD A alpha RN P atm u f st) (P.hThres + 1) a).field d) s.toR7 := by
  obtain ⟨a, c, h0, h1, h2, h3, h4⟩ := below_smooth_at hF hP hatm m beta LD A alpha RN u f st
  exact ⟨a, c, h0, h1, h2, h3, fun s hs => h4 s hs.v hs.phi hs.gamma⟩

theorem altitude_ahead {F : ℝ → FState → FState} {y : ℝ → FState} {a b : ℝ} {S : Finset ℝ}
    (hy : SwitchedFlight F y a b S) (hab : a < b) (R : ℝ) :
    Filter.Tendsto (fun t => (y t).r * R - R) (nhdsWithin a (Set.Ioi a)) (nhds ((y a).r * R - R)) := by
  have hc : Continuous fun x : R7 => x.1 * R - R := by fun_prop
  exact (hc.tendsto (y a).toR7).comp (flight_right hy hab)

/-- Ahead of every such state the equations of motion are smooth. -/
theorem shipped_smoothAhead {name : String} {F : AtmFile} (hF : (name, F) ∈ shippedFiles) {P : Planet}
    (hP : Planet.init name = .ok P) {atm : Atmosphere} (hatm : LoadedCubic P F.km (fileRows F) atm)
    (m beta LD A alpha RN : ℝ) (u : Bool) (f : ℝ → ℝ) (st : InitState) {s : FState}
    (hf : u = true → ContDiffAt ℝ 1 f (s.v * P.Vref / atm.sonicInt (s.r * P.RP - P.RP))) (hs : Departure P s) :
    ∃ W Q, SmoothAhead (Vehicle.mk' m beta LD A alpha RN P atm u f st) s W Q := by
  have hR : 0 < P.RP := (C01_planet_consistent name P hP).2.1
  by_cases he : s.r * P.RP - P.RP = P.hThres
  · rcases lt_or_gt_of_ne (mul_ne_zero hs.v (hs.edge he)) with hdn | hup
    · obtain ⟨a, c, hc0, hc, -, heq, hsm⟩ := below_smooth hF hP hatm m beta LD A alpha RN u f st
      refine ⟨_, fun x => c ≤ x.r * P.RP - P.RP ∧ x.r * P.RP - P.RP ≤ P.hThres, hsm s hs he hf,
        fun x t d hx => heq x d t hx.1 hx.2, ?_⟩
      intro G y a b S hG hy hab hya
      have h1 := flight_descends hG hy hab (by rw [hya]; exact hdn)
      have h2 := (altitude_ahead hy hab P.RP).eventually (lt_mem_nhds (show c < (y a).r * P.RP - P.RP by
        rw [hya, he]; exact hc))
      filter_upwards [h1, h2] with t h1 h2
      refine ⟨h2.le, ?_⟩
      rw [← he, ← hya]
      have := mul_lt_mul_of_pos_right h1 hR
      linarith
    · refine ⟨_, fun x => P.hThres < x.r * P.RP - P.RP, above_smooth hP atm m beta LD A alpha RN u f st hs he, ?_, ?_⟩
      · intro x t d hx
        have z1 : P.density atm (x.r * P.RP - P.RP) = 0 := by
          rw [Planet.density, if_neg (fun hc => absurd hc.2 (not_le.mpr hx)), if_pos (show _ > P.hThres from hx)]
        refine inAtmosphere_EOM _ _ _ x t d ?_ (Or.inl z1)
        refine Eq.trans ?_ z1.symm
        exact inAtmosphere_vacuum _ _ _ (show P.hThres - 1 < x.r * P.RP - P.RP by linarith)
      · intro G y a b S hG hy hab hya
        have h1 := flight_climbs hG hy hab (by rw [hya]; exact hup)
        filter_upwards [h1] with t h1
        rw [← he, ← hya]
        have := mul_lt_mul_of_pos_right h1 hR
        linarith
  · refine ⟨_, fun _ => True, fun d => field_smooth (shipped_smoothDrag name F hF P hP atm hatm m beta LD A alpha RN u f
      st s hf hs.alt he) (departure_r hP hs) hs.v hs.phi hs.gamma
      ((C88_shipped_density_smooth name F hF P hP atm hatm).1 _ hs.alt.ne' he) d, fun _ _ _ _ => rfl, ?_⟩
    intros
    exact Filter.Eventually.of_forall fun _ => trivial

/-- C88 through the edge of the atmosphere: in the shipped atmospheres two flights of the same vehicle (with a constant
drag coefficient or a continuously differentiable drag curve) with the same bank angle history that start in the same
state agree as long as the first one stays above the reference altitude, off the poles, moving, with `cos γ ≠ -0.01`, and
is climbing or descending whenever it meets the edge of the atmosphere. -/
theorem C88_crossing_unique (name : String) (F : AtmFile) (hF : (name, F) ∈ shippedFiles) (P : Planet)
    (hP : Planet.init name = .ok P) (atm : Atmosphere) (hatm : LoadedCubic P F.km (fileRows F) atm)
    (m beta LD A alpha RN : ℝ) (u : Bool) (f : ℝ → ℝ) (st : InitState) (hf : u = true → ContDiff ℝ 1 f)
    (delta : ℝ → ℝ) (y y' : ℝ → FState) (a b : ℝ) (S S' : Finset ℝ)
    (hpc : ∀ t ∈ Set.Ico a b, ∃ d, ∀ᶠ s in nhdsWithin t (Set.Ioi t), delta s = d)
    (hy : SwitchedFlight (fun t s => (Vehicle.mk' m beta LD A alpha RN P atm u f st).EOM s t (delta t)) y a b S)
    (hy' : SwitchedFlight (fun t s => (Vehicle.mk' m beta LD A alpha RN P atm u f st).EOM s t (delta t)) y' a b S')
    (h0 : y a = y' a) (hd : ∀ t ∈ Set.Ico a b, Departure P (y t)) :
    ∀ t ∈ Set.Icc a b, y t = y' t :=
  smoothAhead_unique _ delta y y' a b S S' hpc hy hy' h0 fun t ht =>
    shipped_smoothAhead hF hP hatm m beta LD A alpha RN u f st (fun hu => (hf hu).contDiffAt) (hd t ht)

theorem departure_eventually {P : Planet} {s : FState} (hs : Departure P s) {F : ℝ → FState → FState} {y : ℝ → FState}
    {a b : ℝ} {S : Finset ℝ} (hy : SwitchedFlight F y a b S) (hab : a < b) (hya : y a = s) :
    ∀ᶠ t in nhdsWithin a (Set.Ioi a), Departure P (y t) := by
  subst hya
  have h := flight_right hy hab
  have k : ∀ g : R7 → ℝ, Continuous g → Filter.Tendsto (fun t => g (y t).toR7) (nhdsWithin a (Set.Ioi a))
    (nhds (g (y a).toR7)) := fun g hg => (hg.tendsto _).comp h
  have k1 := (k (fun x => x.2.2.2.1) (by fun_prop)).eventually_ne hs.v
  have k2 := (k (fun x => cos x.2.2.1) (by fun_prop)).eventually_ne hs.phi
  have k3 := (k (fun x => cos x.2.2.2.2.2.1) (by fun_prop)).eventually_ne hs.gamma
  have k4 := (altitude_ahead hy hab P.RP).eventually (lt_mem_nhds hs.alt)
  by_cases he : (y a).r * P.RP - P.RP = P.hThres
  · have k5 := (k (fun x => sin x.2.2.2.2.2.1) (by fun_prop)).eventually_ne (hs.edge he)
    filter_upwards [k1, k2, k3, k4, k5] with t a1 a2 a3 a4 a5
    exact ⟨a1, a2, a3, a4, fun _ => a5⟩
  · have k5 := (altitude_ahead hy hab P.RP).eventually_ne he
    filter_upwards [k1, k2, k3, k4, k5] with t a1 a2 a3 a4 a5
    exact ⟨a1, a2, a3, a4, fun h => absurd h a5⟩

/-- C88 at the edge of the atmosphere, forwards in time: from every state above the reference altitude, off the poles,
moving, with `cos γ ≠ -0.01`, and climbing or descending if it is exactly at the edge of the atmosphere (where the
examples start their entries), leaves one and for some time only one flight. -/
theorem C88_forward_flight (name : String) (F : AtmFile) (hF : (name, F) ∈ shippedFiles) (P : Planet)
    (hP : Planet.init name = .ok P) (atm : Atmosphere) (hatm : LoadedCubic P F.km (fileRows F) atm)
    (m beta LD A alpha RN : ℝ) (u : Bool) (f : ℝ → ℝ) (st : InitState) (hf : u = true → ContDiff ℝ 1 f)
    (delta t₀ : ℝ) (s : FState) (hs : Departure P s) :
    (∃ (y : ℝ → FState) (b : ℝ), t₀ < b ∧ y t₀ = s ∧ (∀ t ∈ Set.Icc t₀ b, Departure P (y t)) ∧
      SwitchedFlight (fun t x => (Vehicle.mk' m beta LD A alpha RN P atm u f st).EOM x t delta) y t₀ b ∅) ∧
    ∀ (y y' : ℝ → FState) (b b' : ℝ) (S S' : Finset ℝ), t₀ < b → t₀ < b' → y t₀ = s → y' t₀ = s →
      SwitchedFlight (fun t x => (Vehicle.mk' m beta LD A alpha RN P atm u f st).EOM x t delta) y t₀ b S →
      SwitchedFlight (fun t x => (Vehicle.mk' m beta LD A alpha RN P atm u f st).EOM x t delta) y' t₀ b' S' →
      ∀ᶠ t in nhdsWithin t₀ (Set.Ioi t₀), y t = y' t := by
  constructor
  · obtain ⟨W, Q, hW⟩ := shipped_smoothAhead hF hP hatm m beta LD A alpha RN u f st (fun hu => (hf hu).contDiffAt) hs
    obtain ⟨y, b, hb, hyt, -, hy⟩ := smoothAhead_exists hW delta t₀
    have hdep := departure_eventually hs hy hb hyt
    have n3 : ∀ᶠ s in nhdsWithin t₀ (Set.Ioi t₀), s ≤ b := by
      filter_upwards [Ioc_mem_nhdsGT hb] with s hs using hs.2
    obtain ⟨c, hc, hall⟩ := (mem_nhdsGT_iff_exists_Ioc_subset).mp (hdep.and n3)
    refine ⟨y, c, hc, hyt, fun t ht => ?_, flight_mono hy le_rfl (hall ⟨hc, le_rfl⟩).2⟩
    rcases ht.1.eq_or_lt with rfl | h
    · rw [hyt]; exact hs
    · exact (hall ⟨h, ht.2⟩).1
  · intro y y' b b' S S' hb hb' hyt hyt' hy hy'
    have hdep := departure_eventually hs hy hb hyt
    have n3 : ∀ᶠ s in nhdsWithin t₀ (Set.Ioi t₀), s ≤ min b b' := by
      filter_upwards [Ioc_mem_nhdsGT (lt_min hb hb')] with s hs using hs.2
    obtain ⟨c, hc, hall⟩ := (mem_nhdsGT_iff_exists_Ioc_subset).mp (hdep.and n3)
    have hcb := (hall ⟨hc, le_rfl⟩).2
    have := C88_crossing_unique name F hF P hP atm hatm m beta LD A alpha RN u f st hf (fun _ => delta) y y' t₀ c S S'
      (fun t _ => ⟨delta, Filter.Eventually.of_forall fun _ => rfl⟩) (flight_mono hy le_rfl (hcb.trans (min_le_left _ _)))
      (flight_mono hy' le_rfl (hcb.trans (min_le_right _ _))) (by rw [hyt, hyt']) (fun t ht => by
        rcases ht.1.eq_or_lt with rfl | h
        · rw [hyt]; exact hs
        · exact (hall ⟨h, ht.2.le⟩).1)
    exact (mem_nhdsGT_iff_exists_Ioc_subset).mpr ⟨c, hc, fun t ht => this t ⟨ht.1.le, ht.2⟩⟩

/-! ### No flight is differentiable at the edge -/

/-- If a function is differentiable and its derivative has limits from both sides, the limits agree. -/
theorem one_sided_limits {g : ℝ → ℝ} {t₀ L R : ℝ} (hd : ∀ᶠ t in nhds t₀, DifferentiableAt ℝ g t)
    (hL : Filter.Tendsto (deriv g) (nhdsWithin t₀ (Set.Iio t₀)) (nhds L))
    (hR : Filter.Tendsto (deriv g) (nhdsWithin t₀ (Set.Ioi t₀)) (nhds R)) : L = R := by
  obtain ⟨ε, hε, h⟩ := Metric.eventually_nhds_iff.mp hd
  have hon : ∀ t ∈ Set.Ioo (t₀ - ε) (t₀ + ε), DifferentiableAt ℝ g t := fun t ht =>
    h (by rw [Real.dist_eq, abs_lt]; constructor <;> linarith [ht.1, ht.2])
  have h0 := hon t₀ ⟨by linarith, by linarith⟩
  have hr : HasDerivWithinAt g R (Set.Ici t₀) t₀ :=
    hasDerivWithinAt_Ici_of_tendsto_deriv (s := Set.Ioo t₀ (t₀ + ε))
      (fun t ht => (hon t ⟨by linarith [ht.1], ht.2⟩).differentiableWithinAt) h0.continuousAt.continuousWithinAt
      (Ioo_mem_nhdsGT (by linarith)) hR
  have hl : HasDerivWithinAt g L (Set.Iic t₀) t₀ :=
    hasDerivWithinAt_Iic_of_tendsto_deriv (s := Set.Ioo (t₀ - ε) t₀)
      (fun t ht => (hon t ⟨ht.1, by linarith [ht.2]⟩).differentiableWithinAt) h0.continuousAt.continuousWithinAt
      (Ioo_mem_nhdsLT (by linarith)) hL
  have e1 := (uniqueDiffWithinAt_Ici t₀).eq_deriv _ hr h0.hasDerivAt.hasDerivWithinAt
  have e2 := (uniqueDiffWithinAt_Iic t₀).eq_deriv _ hl h0.hasDerivAt.hasDerivWithinAt
  rw [e1, e2]

/-- A function with non-zero derivative passes its value from one side to the other. -/
theorem passes {g : ℝ → ℝ} {t₀ d : ℝ} (h : HasDerivAt g d t₀) (hd : 0 < d) :
    (∀ᶠ t in nhdsWithin t₀ (Set.Iio t₀), g t < g t₀) ∧ ∀ᶠ t in nhdsWithin t₀ (Set.Ioi t₀), g t₀ < g t := by
  have hs := (hasDerivAt_iff_tendsto_slope.mp h).eventually (lt_mem_nhds hd)
  constructor
  · have h1 : nhdsWithin t₀ (Set.Iio t₀) ≤ nhdsWithin t₀ {t₀}ᶜ := nhdsWithin_mono _ fun t ht => ne_of_lt ht
    filter_upwards [h1 hs, self_mem_nhdsWithin] with t h2 ht
    have h2' : 0 < slope g t₀ t := h2
    rw [slope_def_field] at h2'
    have ht' : t - t₀ < 0 := sub_neg.mpr ht
    by_contra hc
    exact absurd h2' (not_lt.mpr (div_nonpos_of_nonneg_of_nonpos (by linarith) ht'.le))
  · have h1 : nhdsWithin t₀ (Set.Ioi t₀) ≤ nhdsWithin t₀ {t₀}ᶜ := nhdsWithin_mono _ fun t ht => ne_of_gt ht
    filter_upwards [h1 hs, self_mem_nhdsWithin] with t h2 ht
    have h2' : 0 < slope g t₀ t := h2
    rw [slope_def_field] at h2'
    have ht' : 0 < t - t₀ := sub_pos.mpr ht
    by_contra hc
    exact absurd h2' (not_lt.mpr (div_nonpos_of_nonpos_of_nonneg (by linarith) ht'.le))

/-- C88 at the edge of the atmosphere: where a vehicle with positive drag coefficient crosses the edge of a shipped
atmosphere, climbing or descending, it cannot satisfy the equations of motion at all times around the crossing: the
density, and with it the deceleration, jumps there. -/
theorem C88_edge_not_differentiable (name : String) (F : AtmFile) (hF : (name, F) ∈ shippedFiles) (P : Planet)
    (hP : Planet.init name = .ok P) (atm : Atmosphere) (hatm : LoadedCubic P F.km (fileRows F) atm)
    (m beta LD A alpha RN : ℝ) (u : Bool) (f : ℝ → ℝ) (st : InitState) (hm : 0 < m) (hb : 0 < beta) (hA : 0 < A)
    (hf : ContDiff ℝ 1 f) (hf0 : ∀ M, 0 < f M) (delta : ℝ → ℝ) (y : ℝ → FState) (t₀ : ℝ)
    (hs : Departure P (y t₀)) (he : (y t₀).r * P.RP - P.RP = P.hThres) :
    ¬ ∀ᶠ t in nhds t₀,
      SolvesAt (fun x => (Vehicle.mk' m beta LD A alpha RN P atm u f st).EOM x t (delta t)) y t := by
  intro hsol
  obtain ⟨_, hR, _, hρ0, _, hTr, hTS, hST, _⟩ := C01_planet_consistent name P hP
  set V := Vehicle.mk' m beta LD A alpha RN P atm u f st with hV
  obtain ⟨a, c, hc0, hc, -, heq, hsm⟩ := below_smooth hF hP hatm m beta LD A alpha RN u f st
  have hab := above_smooth hP atm m beta LD A alpha RN u f st hs he 0
  have hbe := hsm (y t₀) hs he (fun _ => hf.contDiffAt) 0
  rw [← hV] at heq hab hbe
  set B := inAtmosphere V (P.hThres + 1) a with hB
  set T := inAtmosphere V (P.hThres - 1) atm with hT
  have hS0 := hsol.self_of_nhds
  have hcy : ContinuousAt (fun t => (y t).toR7) t₀ := ((solvesAt_iff _ _ _).mp hS0).continuousAt
  -- the two limits of the deceleration
  have limB : Filter.Tendsto (fun t => (B.EOM (y t) 0 0).v) (nhds t₀) (nhds (B.EOM (y t₀) 0 0).v) := by
    have h1 : ContinuousAt (fun x : R7 => (B.field 0 x).2.2.2.1) (y t₀).toR7 := 
      hbe.continuousAt.snd.snd.snd.fst
    exact ContinuousAt.comp (f := fun t => (y t).toR7) (x := t₀) h1 hcy
  have limT : Filter.Tendsto (fun t => (T.EOM (y t) 0 0).v) (nhds t₀) (nhds (T.EOM (y t₀) 0 0).v) := by
    have h1 : ContinuousAt (fun x : R7 => (T.field 0 x).2.2.2.1) (y t₀).toR7 := 
      hab.continuousAt.snd.snd.snd.fst
    exact ContinuousAt.comp (f := fun t => (y t).toR7) (x := t₀) h1 hcy
  have hdv : ∀ᶠ t in nhds t₀, deriv (fun t => (y t).v) t = (V.EOM (y t) t (delta t)).v ∧
      DifferentiableAt ℝ (fun t => (y t).v) t := by
    filter_upwards [hsol] with t ht using ⟨ht.v.deriv, ht.v.differentiableAt⟩
  have hnb : ∀ (t d : ℝ) (x : FState), c ≤ x.r * P.RP - P.RP → x.r * P.RP - P.RP ≤ P.hThres →
      (V.EOM x t d).v = (B.EOM x 0 0).v := by
    intro t d x h1 h2
    rw [heq x d t h1 h2]
    rfl
  have hnt : ∀ (t d : ℝ) (x : FState), P.hThres < x.r * P.RP - P.RP → (V.EOM x t d).v = (T.EOM x 0 0).v := by
    intro t d x hx
    have z1 : P.density atm (x.r * P.RP - P.RP) = 0 := by
      rw [Planet.density, if_neg (fun hc => absurd hc.2 (not_le.mpr hx)), if_pos (show _ > P.hThres from hx)]
    have : V.EOM x t d = T.EOM x t d := by
      refine inAtmosphere_EOM _ _ _ x t d ?_ (Or.inl z1)
      refine Eq.trans ?_ z1.symm
      exact inAtmosphere_vacuum _ _ _ (show P.hThres - 1 < x.r * P.RP - P.RP by linarith)
    rw [this]
    rfl
  have hne : (B.EOM (y t₀) 0 0).v ≠ (T.EOM (y t₀) 0 0).v := by
    rw [← hnb 0 0 _ (by rw [he]; exact hc.le) he.le]
    intro h
    have hDT : T.Dbar (y t₀).r (y t₀).theta (y t₀).phi (y t₀).v = 0 := by
      have : T.planet.rhobar T.atm (y t₀).r (y t₀).theta (y t₀).phi = 0 := by
        change T.planet.density atm ((y t₀).r * P.RP - P.RP) / P.rho0 = 0
        rw [inAtmosphere_vacuum V _ atm (show P.hThres - 1 < (y t₀).r * P.RP - P.RP by linarith), zero_div]
      unfold Vehicle.Dbar
      rw [this]
      ring
    have hDV : 0 < V.Dbar (y t₀).r (y t₀).theta (y t₀).phi (y t₀).v := by
      have hd := (C85_density_positive name F hF P hP atm hatm ((y t₀).r * P.RP - P.RP)).mpr he.le
      have h1 : 0 < V.planet.rhobar V.atm (y t₀).r (y t₀).theta (y t₀).phi := div_pos hd hρ0
      have h2 : 0 < V.Abar := div_pos hA (div_pos hm (mul_pos hρ0 hR))
      have h3 : 0 < V.CD := div_pos hm (mul_pos hb hA)
      have h4 : 0 < (y t₀).v ^ 2 := by have := hs.v; positivity
      have h5 : (0:ℝ) < 0.5 := by norm_num
      unfold Vehicle.Dbar
      refine mul_pos (mul_pos (mul_pos (mul_pos h5 h1) h4) h2) ?_
      split_ifs
      · exact hf0 _
      · exact h3
    have e : (0.0 * cos V.alpha - V.Dbar (y t₀).r (y t₀).theta (y t₀).phi (y t₀).v) / V.mbar =
        (0.0 * cos V.alpha - T.Dbar (y t₀).r (y t₀).theta (y t₀).phi (y t₀).v) / V.mbar :=
      add_right_cancel (add_right_cancel h)
    have hmb : V.mbar = 1 := div_self hm.ne'
    rw [hDT, hmb, div_one, div_one] at e
    linarith
  have hd := hdv.mono fun t h => h.2
  have low : ∀ᶠ t in nhds t₀, c ≤ (y t).r * P.RP - P.RP := by
    have hc' : ContinuousAt (fun t => (y t).r * P.RP - P.RP) t₀ :=
      (hS0.r.continuousAt.mul continuousAt_const).sub continuousAt_const
    exact (hc'.eventually (lt_mem_nhds (show c < (y t₀).r * P.RP - P.RP by rw [he]; exact hc))).mono fun _ h => h.le
  -- on a set of times below the edge, or above it
  have sideB : ∀ s : Set ℝ, (∀ᶠ t in nhdsWithin t₀ s, (y t).r < (y t₀).r) →
      Filter.Tendsto (deriv fun t => (y t).v) (nhdsWithin t₀ s) (nhds (B.EOM (y t₀) 0 0).v) := by
    intro s hlt
    refine (limB.mono_left nhdsWithin_le_nhds).congr' ?_
    filter_upwards [hlt, nhdsWithin_le_nhds low, nhdsWithin_le_nhds hdv] with t h1 h2 h3
    have := mul_lt_mul_of_pos_right h1 hR
    rw [h3.1, hnb t _ _ h2 (by linarith)]
  have sideT : ∀ s : Set ℝ, (∀ᶠ t in nhdsWithin t₀ s, (y t₀).r < (y t).r) →
      Filter.Tendsto (deriv fun t => (y t).v) (nhdsWithin t₀ s) (nhds (T.EOM (y t₀) 0 0).v) := by
    intro s hlt
    refine (limT.mono_left nhdsWithin_le_nhds).congr' ?_
    filter_upwards [hlt, nhdsWithin_le_nhds hdv] with t h1 h3
    have := mul_lt_mul_of_pos_right h1 hR
    rw [h3.1, hnt t _ _ (by linarith)]
  have hrd : HasDerivAt (fun t => (y t).r) ((y t₀).v * sin (y t₀).gamma) t₀ := hS0.r
  rcases lt_or_gt_of_ne (mul_ne_zero hs.v (hs.edge he)) with hdn | hup
  · obtain ⟨h1, h2⟩ := passes hrd.fun_neg (by linarith)
    exact hne (one_sided_limits hd (sideT _ (h1.mono fun t h => by linarith)) (sideB _ (h2.mono fun t h => by linarith))).symm
  · obtain ⟨h1, h2⟩ := passes hrd hup
    exact hne (one_sided_limits hd (sideB _ h1) (sideT _ h2))

/-! ### Flights through the edge -/

theorem flight_congr {F G : ℝ → FState → FState} {y : ℝ → FState} {a b : ℝ} {S : Finset ℝ}
    (hy : SwitchedFlight F y a b S) (h : ∀ t ∈ Set.Ioo a b, t ∉ S → F t (y t) = G t (y t)) :
    SwitchedFlight G y a b S := by
  refine ⟨hy.r, hy.theta, hy.phi, hy.v, hy.psi, hy.gamma, hy.drange, fun t ht hS => ?_⟩
  have := hy.solves t ht hS
  rw [solvesAt_iff] at this ⊢
  rw [← h t ht hS]
  exact this

/-- A solution of the smooth equations through a state, around a time. -/
theorem smooth_solution {W : Vehicle} {s : FState} (delta t₀ : ℝ) (h : ContDiffAt ℝ 1 (W.field delta) s.toR7) :
    ∃ y : ℝ → FState, y t₀ = s ∧ ∀ᶠ t in nhds t₀, SolvesAt (fun x => W.EOM x t delta) y t := by
  obtain ⟨α, h0, ε, hε, h1⟩ := h.exists_forall_mem_closedBall_exists_eq_forall_mem_Ioo_hasDerivAt₀ t₀
  refine ⟨fun t => FState.ofR7 (α t), by simp only [h0, ofR7_toR7], ?_⟩
  filter_upwards [Ioo_mem_nhds (show t₀ - ε < t₀ by linarith) (show t₀ < t₀ + ε by linarith)] with t ht
  rw [solvesAt_iff]
  exact h1 t ht

theorem glue {P₁ P₂ : ℝ → Prop} {t₀ : ℝ} (h1 : ∀ᶠ t in nhdsWithin t₀ (Set.Iio t₀), P₁ t)
    (h2 : ∀ᶠ t in nhdsWithin t₀ (Set.Ioi t₀), P₂ t) :
    ∃ ε > 0, (∀ t, t₀ - ε ≤ t → t < t₀ → P₁ t) ∧ ∀ t, t₀ < t → t ≤ t₀ + ε → P₂ t := by
  obtain ⟨c, hc, hc'⟩ := (mem_nhdsLT_iff_exists_Ico_subset).mp h1
  obtain ⟨d, hd, hd'⟩ := (mem_nhdsGT_iff_exists_Ioc_subset).mp h2
  have hc0 : c < t₀ := hc
  have hd0 : t₀ < d := hd
  refine ⟨min (t₀ - c) (d - t₀), lt_min (by linarith) (by linarith), fun t a b => hc' ⟨?_, b⟩, fun t a b => hd' ⟨a, ?_⟩⟩
  · have := min_le_left (t₀ - c) (d - t₀); linarith
  · have := min_le_right (t₀ - c) (d - t₀); linarith

/-- C88 at the edge of the atmosphere: through every state at the edge of a shipped atmosphere in which the vehicle
climbs or descends (moving, off the poles, `cos γ ≠ -0.01`) passes a flight from one side of the edge to the other. -/
theorem C88_crossing_exists (name : String) (F : AtmFile) (hF : (name, F) ∈ shippedFiles) (P : Planet)
    (hP : Planet.init name = .ok P) (atm : Atmosphere) (hatm : LoadedCubic P F.km (fileRows F) atm)
    (m beta LD A alpha RN : ℝ) (u : Bool) (f : ℝ → ℝ) (st : InitState) (hf : u = true → ContDiff ℝ 1 f)
    (delta t₀ : ℝ) (s : FState) (hs : Departure P s) (he : s.r * P.RP - P.RP = P.hThres) :
    ∃ (y : ℝ → FState) (ε : ℝ), 0 < ε ∧ y t₀ = s ∧
      SwitchedFlight (fun t x => (Vehicle.mk' m beta LD A alpha RN P atm u f st).EOM x t delta) y (t₀ - ε) (t₀ + ε) {t₀} ∧
      (∀ t ∈ Set.Icc (t₀ - ε) (t₀ + ε), t ≠ t₀ →
        (P.hThres < (y t).r * P.RP - P.RP ↔ 0 < s.v * sin s.gamma * (t - t₀)) ∧
        ((y t).r * P.RP - P.RP < P.hThres ↔ s.v * sin s.gamma * (t - t₀) < 0)) ∧
      ∀ t ∈ Set.Icc (t₀ - ε) (t₀ + ε), Departure P (y t) := by
  have hR : 0 < P.RP := (C01_planet_consistent name P hP).2.1
  set V := Vehicle.mk' m beta LD A alpha RN P atm u f st with hV
  obtain ⟨a, c, hc0, hc, -, heq, hsm⟩ := below_smooth hF hP hatm m beta LD A alpha RN u f st
  have hab := above_smooth hP atm m beta LD A alpha RN u f st hs he delta
  have hbe := hsm s hs he (fun hu => (hf hu).contDiffAt) delta
  rw [← hV] at heq hab hbe
  set B := inAtmosphere V (P.hThres + 1) a with hB
  set T := inAtmosphere V (P.hThres - 1) atm with hT
  have hnt : ∀ (t : ℝ) (x : FState), P.hThres < x.r * P.RP - P.RP → V.EOM x t delta = T.EOM x t delta := by
    intro t x hx
    have z1 : P.density atm (x.r * P.RP - P.RP) = 0 := by
      rw [Planet.density, if_neg (fun hc => absurd hc.2 (not_le.mpr hx)), if_pos (show _ > P.hThres from hx)]
    refine inAtmosphere_EOM _ _ _ x t delta ?_ (Or.inl z1)
    refine Eq.trans ?_ z1.symm
    exact inAtmosphere_vacuum _ _ _ (show P.hThres - 1 < x.r * P.RP - P.RP by linarith)
  obtain ⟨yT, iT, hyT⟩ := smooth_solution delta t₀ hab
  obtain ⟨yB, iB, hyB⟩ := smooth_solution delta t₀ hbe
  have cont : ∀ (W : Vehicle) (z : ℝ → FState), z t₀ = s → (∀ᶠ t in nhds t₀, SolvesAt (fun x => W.EOM x t delta) z t) →
      ∀ᶠ t in nhds t₀, SolvesAt (fun x => W.EOM x t delta) z t ∧ (z t).v ≠ 0 ∧ cos (z t).phi ≠ 0 ∧ cos (z t).gamma ≠ -0.01
        ∧ c < (z t).r * P.RP - P.RP ∧ sin (z t).gamma ≠ 0 := by
    intro W z iz hz
    have hc' : ContinuousAt (fun t => (z t).toR7) t₀ := ((solvesAt_iff _ _ _).mp hz.self_of_nhds).continuousAt
    have k : ∀ g : R7 → ℝ, Continuous g → Filter.Tendsto (fun t => g (z t).toR7) (nhds t₀) (nhds (g (z t₀).toR7)) :=
      fun g hg => (hg.tendsto _).comp hc'
    rw [iz] at k
    filter_upwards [hz, (k (fun x => x.2.2.2.1) (by fun_prop)).eventually_ne hs.v,
      (k (fun x => cos x.2.2.1) (by fun_prop)).eventually_ne hs.phi,
      (k (fun x => cos x.2.2.2.2.2.1) (by fun_prop)).eventually_ne hs.gamma,
      (k (fun x => x.1 * P.RP - P.RP) (by fun_prop)).eventually (lt_mem_nhds (show c < s.r * P.RP - P.RP by
        rw [he]; exact hc)),
      (k (fun x => sin x.2.2.2.2.2.1) (by fun_prop)).eventually_ne (hs.edge he)] with t a1 a2 a3 a4 a5 a6
    exact ⟨a1, a2, a3, a4, a5, a6⟩
  have gT := cont T yT iT hyT
  have gB := cont B yB iB hyB
  have dT : HasDerivAt (fun t => (yT t).r) (s.v * sin s.gamma) t₀ := by
    have := hyT.self_of_nhds.r
    simpa only [Vehicle.EOM, iT] using this
  have dB : HasDerivAt (fun t => (yB t).r) (s.v * sin s.gamma) t₀ := by
    have := hyB.self_of_nhds.r
    simpa only [Vehicle.EOM, iB] using this
  have hi : ∀ r, s.r < r → P.hThres < r * P.RP - P.RP := by
    intro r h; have := mul_lt_mul_of_pos_right h hR; linarith
  have lo : ∀ r, r < s.r → r * P.RP - P.RP < P.hThres := by
    intro r h; have := mul_lt_mul_of_pos_right h hR; linarith
  rcases lt_or_gt_of_ne (mul_ne_zero hs.v (hs.edge he)) with hdn | hup
  · have p1 := (passes dT.fun_neg (by linarith)).1
    have p2 := (passes dB.fun_neg (by linarith)).2
    obtain ⟨ε, hε, e1, e2⟩ := glue (p1.and (nhdsWithin_le_nhds gT)) (p2.and (nhdsWithin_le_nhds gB))
    have hl : ∀ t, t₀ - ε ≤ t → t < t₀ → P.hThres < (yT t).r * P.RP - P.RP := fun t h1 h2 =>
      hi _ (by have := (e1 t h1 h2).1; rw [iT] at this; linarith)
    have hr : ∀ t, t₀ < t → t ≤ t₀ + ε → (yB t).r * P.RP - P.RP < P.hThres := fun t h1 h2 =>
      lo _ (by have := (e2 t h1 h2).1; rw [iB] at this; linarith)
    have hfl := concat_flights (F₁ := fun t x => T.EOM x t delta) (F₂ := fun t x => B.EOM x t delta)
      (a := t₀ - ε) (τ := t₀) (b := t₀ + ε)
      (fun t ht => by
        rcases ht.2.eq_or_lt with rfl | h
        · exact hyT.self_of_nhds
        · exact (e1 t ht.1 h).2.1)
      (fun t ht => by
        rcases ht.1.eq_or_lt with rfl | h
        · exact hyB.self_of_nhds
        · exact (e2 t h ht.2).2.1) (by rw [iT, iB])
    refine ⟨_, ε, hε, by simp only [le_refl, if_true]; exact iT, flight_congr hfl ?_, ?_, ?_⟩
    · intro t ht hS
      have hne : t ≠ t₀ := by simpa using hS
      rcases lt_or_gt_of_ne hne with h | h
      · simp only [h, h.le, if_true]
        exact (hnt t _ (hl t ht.1.le h)).symm
      · simp only [not_lt.mpr h.le, not_le.mpr h, if_false]
        exact (heq _ _ _ (e2 t h ht.2.le).2.2.2.2.2.1.le (hr t h ht.2.le).le).symm
    · intro t ht hne
      rcases lt_or_gt_of_ne hne with h | h
      · have h1 := hl t ht.1 h
        have h2 := mul_pos_of_neg_of_neg hdn (sub_neg.mpr h)
        simp only [h.le, if_true]
        exact ⟨⟨fun _ => h2, fun _ => h1⟩, ⟨fun h' => absurd h' (not_lt.mpr h1.le), fun h' => absurd h' (not_lt.mpr h2.le)⟩⟩
      · have h1 := hr t h ht.2
        have h2 := mul_neg_of_neg_of_pos hdn (sub_pos.mpr h)
        simp only [not_le.mpr h, if_false]
        exact ⟨⟨fun h' => absurd h' (not_lt.mpr h1.le), fun h' => absurd h' (not_lt.mpr h2.le)⟩, ⟨fun _ => h2, fun _ => h1⟩⟩
    · intro t ht
      rcases lt_trichotomy t t₀ with h | h | h
      · obtain ⟨-, -, a2, a3, a4, a5, a6⟩ := e1 t ht.1 h
        simp only [h.le, if_true]
        exact ⟨a2, a3, a4, hc0.trans_lt a5, fun _ => a6⟩
      · subst h
        simp only [le_refl, if_true, iT]
        exact hs
      · obtain ⟨-, -, a2, a3, a4, a5, a6⟩ := e2 t h ht.2
        simp only [not_le.mpr h, if_false]
        exact ⟨a2, a3, a4, hc0.trans_lt a5, fun _ => a6⟩
  · have p1 := (passes dB hup).1
    have p2 := (passes dT hup).2
    obtain ⟨ε, hε, e1, e2⟩ := glue (p1.and (nhdsWithin_le_nhds gB)) (p2.and (nhdsWithin_le_nhds gT))
    have hl : ∀ t, t₀ - ε ≤ t → t < t₀ → (yB t).r * P.RP - P.RP < P.hThres := fun t h1 h2 =>
      lo _ (by have := (e1 t h1 h2).1; rw [iB] at this; linarith)
    have hr : ∀ t, t₀ < t → t ≤ t₀ + ε → P.hThres < (yT t).r * P.RP - P.RP := fun t h1 h2 =>
      hi _ (by have := (e2 t h1 h2).1; rw [iT] at this; linarith)
    have hfl := concat_flights (F₁ := fun t x => B.EOM x t delta) (F₂ := fun t x => T.EOM x t delta)
      (a := t₀ - ε) (τ := t₀) (b := t₀ + ε)
      (fun t ht => by
        rcases ht.2.eq_or_lt with rfl | h
        · exact hyB.self_of_nhds
        · exact (e1 t ht.1 h).2.1)
      (fun t ht => by
        rcases ht.1.eq_or_lt with rfl | h
        · exact hyT.self_of_nhds
        · exact (e2 t h ht.2).2.1) (by rw [iT, iB])
    refine ⟨_, ε, hε, by simp only [le_refl, if_true]; exact iB, flight_congr hfl ?_, ?_, ?_⟩
    · intro t ht hS
      have hne : t ≠ t₀ := by simpa using hS
      rcases lt_or_gt_of_ne hne with h | h
      · simp only [h, h.le, if_true]
        exact (heq _ _ _ (e1 t ht.1.le h).2.2.2.2.2.1.le (hl t ht.1.le h).le).symm
      · simp only [not_lt.mpr h.le, not_le.mpr h, if_false]
        exact (hnt t _ (hr t h ht.2.le)).symm
    · intro t ht hne
      rcases lt_or_gt_of_ne hne with h | h
      · have h1 := hl t ht.1 h
        have h2 := mul_neg_of_pos_of_neg hup (sub_neg.mpr h)
        simp only [h.le, if_true]
        exact ⟨⟨fun h' => absurd h' (not_lt.mpr h1.le), fun h' => absurd h' (not_lt.mpr h2.le)⟩, ⟨fun _ => h2, fun _ => h1⟩⟩
      · have h1 := hr t h ht.2
        have h2 := mul_pos hup (sub_pos.mpr h)
        simp only [not_le.mpr h, if_false]
        exact ⟨⟨fun _ => h2, fun _ => h1⟩, ⟨fun h' => absurd h' (not_lt.mpr h1.le), fun h' => absurd h' (not_lt.mpr h2.le)⟩⟩
    · intro t ht
      rcases lt_trichotomy t t₀ with h | h | h
      · obtain ⟨-, -, a2, a3, a4, a5, a6⟩ := e1 t ht.1 h
        simp only [h.le, if_true]
        exact ⟨a2, a3, a4, hc0.trans_lt a5, fun _ => a6⟩
      · subst h
        simp only [le_refl, if_true, iB]
        exact hs
      · obtain ⟨-, -, a2, a3, a4, a5, a6⟩ := e2 t h ht.2
        simp only [not_le.mpr h, if_false]
        exact ⟨a2, a3, a4, hc0.trans_lt a5, fun _ => a6⟩

/-! ### Cases -/

/-- A vehicle at the edge of the atmosphere of Mars, descending at the reference speed. -/
theorem mars_entry {P : Planet} (hP : Planet.init "MARS" = .ok P) :
    Departure P ⟨1 + P.hThres / P.RP, 0, 0, 1, 0, -0.2, 0⟩ ∧ (1 + P.hThres / P.RP) * P.RP - P.RP = P.hThres := by
  obtain ⟨_, hR, _, _, _, hTr, hTS, hST, _⟩ := C01_planet_consistent "MARS" P hP
  have e : (1 + P.hThres / P.RP) * P.RP - P.RP = P.hThres := by
    have : P.hThres / P.RP * P.RP = P.hThres := div_mul_cancel₀ _ hR.ne'
    rw [add_mul, this, one_mul, add_sub_cancel_left]
  refine ⟨⟨by norm_num, by simp, ?_, by simp only [e]; linarith, fun _ => ?_⟩, e⟩
  · have : 0 < cos (-0.2 : ℝ) := cos_pos_of_mem_Ioo ⟨by linarith [two_le_pi], by linarith [two_le_pi]⟩
    intro h
    simp only [h] at this
    norm_num at this
  · exact (sin_neg_of_neg_of_neg_pi_lt (by norm_num) (by linarith [two_le_pi])).ne

/-- Case for `C88_forward_flight`, `C88_crossing_exists`, `C88_crossing_unique` and `C88_edge_not_differentiable`: a
vehicle with a drag curve enters the atmosphere of Mars.  It flies through the edge, from above to below, in only one way,
and its speed is not differentiable there. -/
example : ∃ (P : Planet) (atm : Atmosphere) (y : ℝ → FState) (ε : ℝ), Planet.init "MARS" = .ok P ∧
    LoadedCubic P mars.km (fileRows mars) atm ∧ 0 < ε ∧ P.hThres < (y (-ε)).r * P.RP - P.RP ∧
    (y ε).r * P.RP - P.RP < P.hThres ∧
    SwitchedFlight (fun t s => (Vehicle.mk' 1000 100 0.2 10 0 1 P atm true demoCurve ⟨0, 0, 0, 0, 0, 0, 0, 0⟩).EOM s t
      0) y (-ε) ε {0} ∧
    (¬ ∀ᶠ t in nhds 0, SolvesAt (fun s => (Vehicle.mk' 1000 100 0.2 10 0 1 P atm true demoCurve
      ⟨0, 0, 0, 0, 0, 0, 0, 0⟩).EOM s t 0) y t) ∧
    ∀ (y' : ℝ → FState) (S' : Finset ℝ), y' (-ε) = y (-ε) →
      SwitchedFlight (fun t s => (Vehicle.mk' 1000 100 0.2 10 0 1 P atm true demoCurve ⟨0, 0, 0, 0, 0, 0, 0, 0⟩).EOM s t
        0) y' (-ε) ε S' → ∀ t ∈ Set.Icc (-ε) ε, y t = y' t := by
  obtain ⟨P, hP⟩ := (C01_planet_names "MARS").1.mpr (by simp [Spec.bodies])
  have hF : ("MARS", mars) ∈ shippedFiles := by simp [shippedFiles]
  obtain ⟨atm, hatm⟩ := (C85_loads "MARS" mars hF P hP).1
  obtain ⟨hd, he⟩ := mars_entry hP
  obtain ⟨y, ε, hε, i0, hy, hside, hdep⟩ := C88_crossing_exists "MARS" mars hF P hP atm hatm 1000 100 0.2 10 0 1 true
    demoCurve ⟨0, 0, 0, 0, 0, 0, 0, 0⟩ (fun _ => demoCurve_smooth) 0 0 _ hd he
  have hsin : sin (-0.2 : ℝ) < 0 := sin_neg_of_neg_of_neg_pi_lt (by norm_num) (by linarith [two_le_pi])
  rw [zero_sub, zero_add] at hy hside hdep
  refine ⟨P, atm, y, ε, hP, hatm, hε, ?_, ?_, hy, ?_, ?_⟩
  · refine (hside (-ε) ⟨le_rfl, by linarith⟩ (by linarith)).1.mpr ?_
    rw [one_mul, sub_zero]
    exact mul_pos_of_neg_of_neg hsin (by linarith)
  · refine (hside ε ⟨by linarith, le_rfl⟩ (by linarith)).2.mpr ?_
    rw [one_mul, sub_zero]
    exact mul_neg_of_neg_of_pos hsin hε
  · exact C88_edge_not_differentiable "MARS" mars hF P hP atm hatm 1000 100 0.2 10 0 1 true demoCurve _ (by norm_num)
      (by norm_num) (by norm_num) demoCurve_smooth demoCurve_pos (fun _ => 0) y 0 (by rw [i0]; exact hd)
      (by rw [i0]; exact he)
  · intro y' S' e hy'
    exact C88_crossing_unique "MARS" mars hF P hP atm hatm 1000 100 0.2 10 0 1 true demoCurve _
      (fun _ => demoCurve_smooth) (fun _ => 0) y y' (-ε) ε _ S' (fun t _ => ⟨0, Filter.Eventually.of_forall fun _ => rfl⟩)
      hy hy' e.symm (fun t ht => hdep t (Set.Ico_subset_Icc_self ht))

end AMAT.Props
