import Verif.Props.LiftDirection
import Verif.Props.EnergyBalance

/-
Property C143: which of two vehicles is slowed down more.
-/

noncomputable section

namespace AMAT.Props

open Real AMAT.Spec AMAT.Data Filter

/-- C143: at one state, two vehicles with constant drag coefficients lose speed at rates that differ by the dynamic pressure times the
difference of the reciprocal ballistic coefficients, whatever their masses, areas, lift-to-drag ratios, nose radii and bank angles. -/
theorem C143_deceleration (name : String) (P : Planet) (hP : Planet.init name = .ok P) (m beta LD A alpha RN m' beta' LD' A' alpha' RN' : ℝ)
    (atm : Atmosphere) (f f' : ℝ → ℝ) (st st' : InitState) (hm : 0 < m) (hb : 0 < beta) (hA : 0 < A) (hm' : 0 < m') (hb' : 0 < beta')
    (hA' : 0 < A') (s : FState) (t d d' : ℝ) :
    (((Vehicle.mk' m beta LD A alpha RN P atm false f st).EOM s t d).v -
        ((Vehicle.mk' m' beta' LD' A' alpha' RN' P atm false f' st').EOM s t d').v) * P.Vref / P.tau =
      1 / 2 * P.density atm (s.r * P.RP - P.RP) * (s.v * P.Vref) ^ 2 * (1 / beta' - 1 / beta) := by
  obtain ⟨_, hR, hGM, hrho, _, _, _, _, hV, hτ, hV2, hτV, _⟩ := C01_planet_consistent name P hP
  have e : ((Vehicle.mk' m beta LD A alpha RN P atm false f st).EOM s t d).v -
        ((Vehicle.mk' m' beta' LD' A' alpha' RN' P atm false f' st').EOM s t d').v =
      (Vehicle.mk' m beta LD A alpha RN P atm false f st).a_sbar s.r s.theta s.phi s.v d -
        (Vehicle.mk' m' beta' LD' A' alpha' RN' P atm false f' st').a_sbar s.r s.theta s.phi s.v d' := by
    have key : ∀ a a' g c : ℝ, a + g + c - (a' + g + c) = a - a' := by intros; ring
    exact key _ _ _ _
  rw [e, a_sbar_physical name P hP m beta LD A alpha RN atm f st hm hb hA,
    a_sbar_physical name P hP m' beta' LD' A' alpha' RN' atm f' st' hm' hb' hA']
  simp only [Planet.rho]
  generalize P.density atm (s.r * P.RP - P.RP) = ρ
  rw [← hτV]
  field_simp
  ring

/-- Without lift the flight-path angle turns at the same rate for every vehicle. -/
theorem ballistic_gamma (m beta A alpha RN m' beta' A' alpha' RN' : ℝ) (P : Planet) (atm : Atmosphere) (f f' : ℝ → ℝ)
    (st st' : InitState) (s : FState) (t d d' : ℝ) :
    ((Vehicle.mk' m beta 0 A alpha RN P atm false f st).EOM s t d).gamma =
      ((Vehicle.mk' m' beta' 0 A' alpha' RN' P atm false f' st').EOM s t d').gamma := by
  have h : ∀ m beta A alpha RN (f : ℝ → ℝ) st d,
      (Vehicle.mk' m beta 0 A alpha RN P atm false f st).a_nbar s.r s.theta s.phi s.v d = 0 := by
    intro m beta A alpha RN f st d
    simp [Vehicle.a_nbar, Vehicle.Lbar, Vehicle.mk', Lits.l00]
  simp only [Vehicle.EOM, h]
  rfl

/-- Limits of the rates along a flight, component by component. -/
theorem rate_limits {V : Vehicle} {e t₀ : ℝ} {z : ℝ → FState} {s : FState}
    (hz : Tendsto (fun t => (V.EOM (z t) t e).toR7) (nhdsWithin t₀ (Set.Ioi t₀)) (nhds (V.EOM s t₀ e).toR7)) :
    Tendsto (fun t => (V.EOM (z t) t e).v) (nhdsWithin t₀ (Set.Ioi t₀)) (nhds (V.EOM s t₀ e).v) ∧
    Tendsto (fun t => (V.EOM (z t) t e).gamma) (nhdsWithin t₀ (Set.Ioi t₀)) (nhds (V.EOM s t₀ e).gamma) := by
  have k : ∀ g : R7 → ℝ, Continuous g → Tendsto (fun t => g (V.EOM (z t) t e).toR7) (nhdsWithin t₀ (Set.Ioi t₀))
      (nhds (g (V.EOM s t₀ e).toR7)) := fun g hg => (hg.tendsto _).comp hz
  exact ⟨k (fun x => x.2.2.2.1) (by fun_prop), k (fun x => x.2.2.2.2.2.1) (by fun_prop)⟩

/-- C143: of two flights from the same state inside a shipped atmosphere, the one with the greater ballistic coefficient is soon the
faster and has the greater energy, whatever else differs between the vehicles.  It is also soon further downrange when the flights
are level at the start or both vehicles fly without lift. -/
theorem C143_higher_beta_faster (name : String) (F : AtmFile) (hF : (name, F) ∈ shippedFiles) (P : Planet)
    (hP : Planet.init name = .ok P) (atm : Atmosphere) (hatm : LoadedCubic P F.km (fileRows F) atm)
    (m beta LD A alpha RN m' beta' LD' A' alpha' RN' : ℝ) (f f' : ℝ → ℝ) (st st' : InitState) (hm : 0 < m) (hbe : 0 < beta)
    (hA : 0 < A) (hm' : 0 < m') (hbe' : 0 < beta') (hA' : 0 < A') (hbb : beta' < beta)
    (d d' t₀ b b' : ℝ) (s : FState) (hs : Departure P s) (hin : s.r * P.RP - P.RP < P.hThres) (hv : 0 < s.v)
    (y y' : ℝ → FState) (S S' : Finset ℝ) (hb : t₀ < b) (hb' : t₀ < b') (hy0 : y t₀ = s) (hy0' : y' t₀ = s)
    (hy : SwitchedFlight (fun t x => (Vehicle.mk' m beta LD A alpha RN P atm false f st).EOM x t d) y t₀ b S)
    (hy' : SwitchedFlight (fun t x => (Vehicle.mk' m' beta' LD' A' alpha' RN' P atm false f' st').EOM x t d') y' t₀ b' S') :
    (∀ᶠ t in nhdsWithin t₀ (Set.Ioi t₀), (y' t).v < (y t).v) ∧
    (∀ᶠ t in nhdsWithin t₀ (Set.Ioi t₀), specificEnergy P (y' t) < specificEnergy P (y t)) ∧
    (0 < cos s.gamma → (sin s.gamma = 0 ∨ LD = 0 ∧ LD' = 0) →
      ∀ᶠ t in nhdsWithin t₀ (Set.Ioi t₀), (y' t).drange < (y t).drange) := by
  obtain ⟨_, hR, hGM, hrho, _, _, _, _, hV, hτ, hV2, hτV, _⟩ := C01_planet_consistent name P hP
  have hr0 : s.r ≠ 0 := departure_r hP hs
  have hsm : ∀ (m beta LD A alpha RN : ℝ) (f : ℝ → ℝ) st e,
      ContDiffAt ℝ 1 ((Vehicle.mk' m beta LD A alpha RN P atm false f st).field e) s.toR7 := fun m beta LD A alpha RN f st e =>
    field_smooth (smoothDrag_const rfl s) hr0 hs.v hs.phi hs.gamma
      ((C88_shipped_density_smooth name F hF P hP atm hatm).1 _ hs.alt.ne' hin.ne) e
  have hdec := C143_deceleration name P hP m beta LD A alpha RN m' beta' LD' A' alpha' RN' atm f f' st st' hm hbe hA hm' hbe' hA'
    s t₀ d d'
  have hρ : 0 < P.density atm (s.r * P.RP - P.RP) := (C85_density_positive name F hF P hP atm hatm _).mpr hin.le
  have hβ : 0 < 1 / beta' - 1 / beta := sub_pos.mpr (one_div_lt_one_div_of_lt hbe' hbb)
  obtain ⟨q1, q2⟩ := rates_after hb hy0 hy (hsm m beta LD A alpha RN f st d)
  obtain ⟨q1', q2'⟩ := rates_after hb' hy0' hy' (hsm m' beta' LD' A' alpha' RN' f' st' d')
  obtain ⟨cv, cg⟩ := rate_limits q2
  obtain ⟨cv', cg'⟩ := rate_limits q2'
  set c := min b b' with hc
  have htc : t₀ < c := lt_min hb hb'
  have hyc := flight_mono hy le_rfl (min_le_left b b')
  have hyc' := flight_mono hy' le_rfl (min_le_right b b')
  rw [← hc] at hyc hyc'
  have hbal := fun h : LD = 0 ∧ LD' = 0 => (show
      ((Vehicle.mk' m beta LD A alpha RN P atm false f st).EOM s t₀ d).gamma =
        ((Vehicle.mk' m' beta' LD' A' alpha' RN' P atm false f' st').EOM s t₀ d').gamma by
    rw [h.1, h.2]; exact ballistic_gamma m beta A alpha RN m' beta' A' alpha' RN' P atm f f' st st' s t₀ d d')
  have hen : ∀ᶠ t in nhdsWithin t₀ (Set.Ioi t₀), (y t).r ≠ 0 ∧ (y' t).r ≠ 0 := by
    have k : ∀ z : ℝ → FState, z t₀ = s → Tendsto (fun t => (z t).toR7) (nhdsWithin t₀ (Set.Ioi t₀)) (nhds (z t₀).toR7) →
        ∀ᶠ t in nhdsWithin t₀ (Set.Ioi t₀), (z t).r ≠ 0 := by
      intro z hz h
      have h1 : Tendsto (fun t => (z t).r) (nhdsWithin t₀ (Set.Ioi t₀)) (nhds (z t₀).r) :=
        ((continuous_fst (X := ℝ)).tendsto _).comp h
      exact h1.eventually_ne (by rw [hz]; exact hr0)
    exact (k y hy0 (flight_right hy hb)).and (k y' hy0' (flight_right hy' hb'))
  have hjd := fun t (h : (y t).r ≠ 0)
      (hq : SolvesAt (fun x => (Vehicle.mk' m beta LD A alpha RN P atm false f st).EOM x t d) y t) =>
    C18_energy_rate_is_minus_drag_power name P hP m beta LD A alpha RN atm f st hm hbe hA d y t hq h
  have hjd' := fun t (h : (y' t).r ≠ 0)
      (hq : SolvesAt (fun x => (Vehicle.mk' m' beta' LD' A' alpha' RN' P atm false f' st').EOM x t d') y' t) =>
    C18_energy_rate_is_minus_drag_power name P hP m' beta' LD' A' alpha' RN' atm f' st' hm' hbe' hA' d' y' t hq h
  generalize Vehicle.mk' m beta LD A alpha RN P atm false f st = V at *
  generalize Vehicle.mk' m' beta' LD' A' alpha' RN' P atm false f' st' = V' at *
  have hlt : (V'.EOM s t₀ d').v < (V.EOM s t₀ d).v := by
    have h1 : 0 < ((V.EOM s t₀ d).v - (V'.EOM s t₀ d').v) * P.Vref / P.tau := by rw [hdec]; positivity
    by_contra hn
    exact absurd h1 (not_lt.mpr (div_nonpos_of_nonpos_of_nonneg
      (mul_nonpos_of_nonpos_of_nonneg (sub_nonpos.mpr (not_lt.mp hn)) hV.le) hτ.le))
  -- limits along a flight of functions of the state
  have st1 : ∀ z : ℝ → FState, z t₀ = s → Tendsto (fun t => (z t).toR7) (nhdsWithin t₀ (Set.Ioi t₀)) (nhds (z t₀).toR7) →
      ∀ g : R7 → ℝ, ContinuousAt g s.toR7 → Tendsto (fun t => g (z t).toR7) (nhdsWithin t₀ (Set.Ioi t₀)) (nhds (g s.toR7)) := by
    intro z hz h g hg
    rw [hz] at h
    exact hg.tendsto.comp h
  have k := st1 y hy0 (flight_right hy hb)
  have k' := st1 y' hy0' (flight_right hy' hb')
  refine ⟨?_, ?_, ?_⟩
  · exact above_after htc hyc.v hyc'.v (by rw [hy0, hy0']) (q1.mono fun t h => h.v) (q1'.mono fun t h => h.v) cv cv' hlt
  · have hdc : ContinuousAt (fun x : R7 => P.rho atm (x.1 * P.RP) x.2.1 x.2.2.1) s.toR7 := by
      have h1 : ContinuousAt (P.density atm) (s.r * P.RP - P.RP) :=
        ((C88_shipped_density_smooth name F hF P hP atm hatm).1 _ hs.alt.ne' hin.ne).continuousAt
      have h2 : ContinuousAt (fun x : R7 => x.1 * P.RP - P.RP) s.toR7 := by fun_prop
      exact ContinuousAt.comp (f := fun x : R7 => x.1 * P.RP - P.RP) (x := s.toR7) h1 h2
    have hrate : ∀ β : ℝ, ContinuousAt (fun x : R7 => -(P.RP * P.rho atm (x.1 * P.RP) x.2.1 x.2.2.1 * x.2.2.2.1 ^ 3 / (2 * β))) s.toR7 := by
      intro β
      exact (((continuousAt_const.mul hdc).mul (by fun_prop)).div_const _).neg
    have hcut : ∃ c', t₀ < c' ∧ c' ≤ c ∧ ∀ t ∈ Set.Icc t₀ c', (y t).r ≠ 0 ∧ (y' t).r ≠ 0 := by
      have n3 : ∀ᶠ s in nhdsWithin t₀ (Set.Ioi t₀), s ≤ c := by
        filter_upwards [Ioc_mem_nhdsGT htc] with s hs using hs.2
      obtain ⟨c', h1, h2⟩ := (mem_nhdsGT_iff_exists_Ioc_subset).mp (hen.and n3)
      have h1' : t₀ < c' := h1
      refine ⟨c', h1', (h2 ⟨h1', le_rfl⟩).2, fun t ht => ?_⟩
      rcases ht.1.eq_or_lt with rfl | h
      · rw [hy0, hy0']; exact ⟨hr0, hr0⟩
      · exact (h2 ⟨h, ht.2⟩).1
    obtain ⟨c', hc1, hc2, hc3⟩ := hcut
    have hj := above_after (g := fun t => jacobi P.J2 P.J3 P.OMEGAbar (y t).r (y t).phi (y t).v)
      (h := fun t => jacobi P.J2 P.J3 P.OMEGAbar (y' t).r (y' t).phi (y' t).v) hc1
      (jacobi_continuousOn P (flight_mono hyc le_rfl hc2) (fun t ht => (hc3 t ht).1))
      (jacobi_continuousOn P (flight_mono hyc' le_rfl hc2) (fun t ht => (hc3 t ht).2)) (by simp only [hy0, hy0'])
      (by filter_upwards [hen, q1] with t h1 h2 using hjd t h1.1 h2) (by filter_upwards [hen, q1'] with t h1 h2 using hjd' t h1.2 h2)
      (k _ (hrate beta)) (k' _ (hrate beta')) (by
        have e : ∀ β : ℝ, -(P.RP * P.rho atm (s.toR7.1 * P.RP) s.toR7.2.1 s.toR7.2.2.1 * s.toR7.2.2.2.1 ^ 3 / (2 * β)) =
            -(P.RP * P.density atm (s.r * P.RP - P.RP) * s.v ^ 3 / 2 * (1 / β)) := by
          intro β
          simp only [Planet.rho, FState.toR7]
          ring
        simp only [e]
        have : 0 < P.RP * P.density atm (s.r * P.RP - P.RP) * s.v ^ 3 / 2 := by positivity
        nlinarith)
    filter_upwards [hj, hen] with t h1 h2
    rw [specificEnergy_eq hP h2.1, specificEnergy_eq hP h2.2]
    exact mul_lt_mul_of_pos_left h1 (by positivity)
  · intro hcg hdr
    have cont : ∀ (G : ℝ → FState → FState) (z : ℝ → FState) (T : Finset ℝ), SwitchedFlight G z t₀ c T →
        ContinuousOn (fun t => (z t).v * cos (z t).gamma) (Set.Icc t₀ c) := fun G z T hz =>
      hz.v.mul (continuous_cos.comp_continuousOn hz.gamma)
    have der : ∀ (W : Vehicle) (e : ℝ) (z : ℝ → FState) (t : ℝ), SolvesAt (fun x => W.EOM x t e) z t →
        HasDerivAt (fun t => (z t).v * cos (z t).gamma) ((W.EOM (z t) t e).v * cos (z t).gamma +
          (z t).v * (-sin (z t).gamma * (W.EOM (z t) t e).gamma)) t := fun W e z t hz => hz.v.mul hz.gamma.cos
    have kv := k (fun x => x.2.2.2.1) (by fun_prop)
    have kc := k (fun x => cos x.2.2.2.2.2.1) (by fun_prop)
    have ks := k (fun x => sin x.2.2.2.2.2.1) (by fun_prop)
    have kv' := k' (fun x => x.2.2.2.1) (by fun_prop)
    have kc' := k' (fun x => cos x.2.2.2.2.2.1) (by fun_prop)
    have ks' := k' (fun x => sin x.2.2.2.2.2.1) (by fun_prop)
    have hw := above_after htc (cont _ y S hyc) (cont _ y' S' hyc') (by rw [hy0, hy0']) (q1.mono fun t h => der V d y t h)
      (q1'.mono fun t h => der V' d' y' t h) ((cv.mul kc).add (kv.mul (ks.neg.mul cg)))
      ((cv'.mul kc').add (kv'.mul (ks'.neg.mul cg'))) (by
        simp only [FState.toR7]
        have h1 := mul_lt_mul_of_pos_right hlt hcg
        have h2 : s.v * (-sin s.gamma * (V.EOM s t₀ d).gamma) = s.v * (-sin s.gamma * (V'.EOM s t₀ d').gamma) := by
          rcases hdr with h | h
          · rw [h]; ring
          · rw [hbal h]
        linarith)
    have := positive_after (d := fun t => (y t).drange - (y' t).drange) htc (hyc.drange.sub hyc'.drange) (by simp [hy0, hy0']) (by
      filter_upwards [hw, q1, q1'] with t h1 h2 h3
      exact ⟨_, sub_pos.mpr h1, h2.drange.sub h3.drange⟩)
    filter_upwards [this] with t ht
    linarith

/-- Hypotheses of `C143_higher_beta_faster` met: 100 km above Venus, descending without lift, before and after a drag skirt is
dropped (ballistic coefficients 50 and 100). -/
example : ∃ (P : Planet) (atm : Atmosphere) (y y' : ℝ → FState) (b : ℝ), Planet.init "VENUS" = .ok P ∧ 0 < b ∧
    y 0 = ⟨1 + 100000 / P.RP, 0, 0, 9 / 10, 0, -(1 / 10), 0⟩ ∧ y' 0 = y 0 ∧
    SwitchedFlight (fun t x => (Vehicle.mk' 900 100 0 10 0 1 P atm false demoCurve ⟨0, 0, 0, 0, 0, 0, 0, 0⟩).EOM x t 0) y 0 b ∅ ∧
    SwitchedFlight (fun t x => (Vehicle.mk' 1000 50 0 20 0 1 P atm false demoCurve ⟨0, 0, 0, 0, 0, 0, 0, 0⟩).EOM x t 0) y' 0 b ∅ ∧
    (∀ᶠ t in nhdsWithin 0 (Set.Ioi 0), (y' t).v < (y t).v ∧ specificEnergy P (y' t) < specificEnergy P (y t) ∧
      (y' t).drange < (y t).drange) := by
  obtain ⟨P, hP⟩ := (C01_planet_names "VENUS").1.mpr (by simp [Spec.bodies])
  have hF : ("VENUS", Data.venus) ∈ shippedFiles := by simp [shippedFiles]
  obtain ⟨atm, hatm⟩ := (C85_loads "VENUS" Data.venus hF P hP).1
  have hRP : 0 < P.RP := (C01_planet_consistent "VENUS" P hP).2.1
  have hT : P.hThres = 180000 := by simp [Planet.init] at hP; subst hP; norm_num [Planet.withScales]
  have halt : (1 + 100000 / P.RP) * P.RP - P.RP = 100000 := by field_simp; ring
  have hcos : 0 < cos (-(1 / 10) : ℝ) := cos_pos_of_mem_Ioo ⟨by linarith [two_le_pi], by linarith [two_le_pi]⟩
  have hs : Departure P ⟨1 + 100000 / P.RP, 0, 0, 9 / 10, 0, -(1 / 10), 0⟩ :=
    ⟨by norm_num, by simp, by intro h; rw [h] at hcos; norm_num at hcos, by simp only [halt]; norm_num,
      by simp only [halt, hT]; norm_num⟩
  obtain ⟨y, b₁, hb₁, hy0, -, hy⟩ := (C88_forward_flight "VENUS" Data.venus hF P hP atm hatm 900 100 0 10 0 1 false demoCurve
    ⟨0, 0, 0, 0, 0, 0, 0, 0⟩ (by simp) 0 0 _ hs).1
  obtain ⟨y', b₂, hb₂, hy0', -, hy'⟩ := (C88_forward_flight "VENUS" Data.venus hF P hP atm hatm 1000 50 0 20 0 1 false demoCurve
    ⟨0, 0, 0, 0, 0, 0, 0, 0⟩ (by simp) 0 0 _ hs).1
  have key := C143_higher_beta_faster "VENUS" Data.venus hF P hP atm hatm 900 100 0 10 0 1 1000 50 0 20 0 1 demoCurve demoCurve
    ⟨0, 0, 0, 0, 0, 0, 0, 0⟩ ⟨0, 0, 0, 0, 0, 0, 0, 0⟩ (by norm_num) (by norm_num) (by norm_num) (by norm_num) (by norm_num)
    (by norm_num) (by norm_num) 0 0 0 b₁ b₂ _ hs (by simp only [halt, hT]; norm_num) (by norm_num) y y' ∅ ∅ hb₁ hb₂ hy0 hy0' hy hy'
  refine ⟨P, atm, y, y', min b₁ b₂, hP, lt_min hb₁ hb₂, hy0, hy0'.trans hy0.symm, flight_mono hy le_rfl (min_le_left _ _),
    flight_mono hy' le_rfl (min_le_right _ _), ?_⟩
  filter_upwards [key.1, key.2.1, key.2.2 hcos (Or.inr ⟨rfl, rfl⟩)] with t a1 a2 a3 using ⟨a1, a2, a3⟩

end AMAT.Props
