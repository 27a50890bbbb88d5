import Verif.Props.EdgeCrossing

/-
Property C142: which way the bank angle takes a vehicle.
-/

noncomputable section

namespace AMAT.Props

open Real AMAT.Spec AMAT.Data Filter

/-- A continuous function that starts from zero and has a positive derivative shortly afterwards is positive shortly afterwards. -/
theorem positive_after {d : ℝ → ℝ} {t₀ b : ℝ} (hb : t₀ < b) (hc : ContinuousOn d (Set.Icc t₀ b)) (h0 : d t₀ = 0)
    (hd : ∀ᶠ t in nhdsWithin t₀ (Set.Ioi t₀), ∃ d', 0 < d' ∧ HasDerivAt d d' t) :
    ∀ᶠ t in nhdsWithin t₀ (Set.Ioi t₀), 0 < d t := by
  have n3 : ∀ᶠ s in nhdsWithin t₀ (Set.Ioi t₀), s ≤ b := by
    filter_upwards [Ioc_mem_nhdsGT hb] with s hs using hs.2
  obtain ⟨c, hct, hall⟩ := (mem_nhdsGT_iff_exists_Ioc_subset).mp (hd.and n3)
  have hct' : t₀ < c := hct
  have hcb : c ≤ b := (hall ⟨hct', le_rfl⟩).2
  have hmono : StrictMonoOn d (Set.Icc t₀ c) := by
    refine strictMonoOn_of_deriv_pos (convex_Icc t₀ c) (hc.mono (Set.Icc_subset_Icc le_rfl hcb)) fun t ht => ?_
    rw [interior_Icc] at ht
    obtain ⟨d', hp, hdd⟩ := (hall ⟨ht.1, ht.2.le⟩).1
    rw [hdd.deriv]; exact hp
  filter_upwards [Ioc_mem_nhdsGT hct'] with t ht
  rw [← h0]
  exact hmono ⟨le_rfl, hct'.le⟩ ⟨ht.1.le, ht.2⟩ ht.1

/-- Two functions that start together, the rate of the first tending to the greater limit. -/
theorem above_after {g h g' h' : ℝ → ℝ} {t₀ b G H : ℝ} (hb : t₀ < b) (hg : ContinuousOn g (Set.Icc t₀ b))
    (hh : ContinuousOn h (Set.Icc t₀ b)) (h0 : g t₀ = h t₀)
    (dg : ∀ᶠ t in nhdsWithin t₀ (Set.Ioi t₀), HasDerivAt g (g' t) t)
    (dh : ∀ᶠ t in nhdsWithin t₀ (Set.Ioi t₀), HasDerivAt h (h' t) t)
    (lg : Tendsto g' (nhdsWithin t₀ (Set.Ioi t₀)) (nhds G)) (lh : Tendsto h' (nhdsWithin t₀ (Set.Ioi t₀)) (nhds H))
    (hGH : H < G) : ∀ᶠ t in nhdsWithin t₀ (Set.Ioi t₀), h t < g t := by
  have := positive_after (d := fun t => g t - h t) hb (hg.sub hh) (by simp [h0]) (by
    filter_upwards [dg, dh, (lg.sub lh).eventually (lt_mem_nhds (sub_pos.mpr hGH))] with t h1 h2 h3
    exact ⟨_, h3, h1.sub h2⟩)
  filter_upwards [this] with t ht
  linarith

/-- Rates along a flight that starts where the equations of motion are smooth. -/
theorem rates_after {V : Vehicle} {delta t₀ b : ℝ} {y : ℝ → FState} {S : Finset ℝ} {s : FState} (hb : t₀ < b) (hy0 : y t₀ = s)
    (hy : SwitchedFlight (fun t x => V.EOM x t delta) y t₀ b S) (hs : ContDiffAt ℝ 1 (V.field delta) s.toR7) :
    (∀ᶠ t in nhdsWithin t₀ (Set.Ioi t₀), SolvesAt (fun x => V.EOM x t delta) y t) ∧
    Tendsto (fun t => (V.EOM (y t) t delta).toR7) (nhdsWithin t₀ (Set.Ioi t₀)) (nhds (V.EOM s t₀ delta).toR7) := by
  constructor
  · have hS : ∀ᶠ t in nhdsWithin t₀ (Set.Ioi t₀), t ∉ S := by
      have hfin : ((S : Set ℝ) \ {t₀})ᶜ ∈ nhds t₀ := (S.finite_toSet.subset Set.sdiff_subset).isClosed.isOpen_compl.mem_nhds (by simp)
      filter_upwards [nhdsWithin_le_nhds hfin, self_mem_nhdsWithin] with t h1 h2 hmem
      exact h1 ⟨hmem, (ne_of_gt h2)⟩
    filter_upwards [hS, Ioo_mem_nhdsGT hb] with t h1 h2
    exact hy.solves t h2 h1
  · have h1 := flight_right hy hb
    rw [hy0] at h1
    exact (hs.continuousAt.tendsto.comp h1)

/-! ### C142 -/

/-- C142: what the bank angle changes.  Position, speed and downrange change at the same rates; the flight-path angle and the heading
turn at rates that differ by the lift acceleration times the difference of the cosines and of the sines. -/
theorem C142_turning_rates (name : String) (P : Planet) (hP : Planet.init name = .ok P) (m beta LD A alpha RN : ℝ)
    (atm : Atmosphere) (u : Bool) (f : ℝ → ℝ) (st : InitState) (hm : 0 < m) (hb : 0 < beta) (hA : 0 < A) (s : FState) (t d d' : ℝ)
    (hv : s.v ≠ 0) (hg : cos s.gamma + 1e-2 ≠ 0) :
    ((Vehicle.mk' m beta LD A alpha RN P atm u f st).EOM s t d).r = ((Vehicle.mk' m beta LD A alpha RN P atm u f st).EOM s t d').r ∧
    ((Vehicle.mk' m beta LD A alpha RN P atm u f st).EOM s t d).theta =
      ((Vehicle.mk' m beta LD A alpha RN P atm u f st).EOM s t d').theta ∧
    ((Vehicle.mk' m beta LD A alpha RN P atm u f st).EOM s t d).phi = ((Vehicle.mk' m beta LD A alpha RN P atm u f st).EOM s t d').phi ∧
    ((Vehicle.mk' m beta LD A alpha RN P atm u f st).EOM s t d).v = ((Vehicle.mk' m beta LD A alpha RN P atm u f st).EOM s t d').v ∧
    ((Vehicle.mk' m beta LD A alpha RN P atm u f st).EOM s t d).drange =
      ((Vehicle.mk' m beta LD A alpha RN P atm u f st).EOM s t d').drange ∧
    (s.v * P.Vref) * ((((Vehicle.mk' m beta LD A alpha RN P atm u f st).EOM s t d).gamma -
        ((Vehicle.mk' m beta LD A alpha RN P atm u f st).EOM s t d').gamma) / P.tau) =
      LD * (1 / 2 * P.density atm (s.r * P.RP - P.RP) * (s.v * P.Vref) ^ 2 / beta) * (cos d - cos d') ∧
    (s.v * P.Vref) * (cos s.gamma + 1e-2) * ((((Vehicle.mk' m beta LD A alpha RN P atm u f st).EOM s t d).psi -
        ((Vehicle.mk' m beta LD A alpha RN P atm u f st).EOM s t d').psi) / P.tau) =
      LD * (1 / 2 * P.density atm (s.r * P.RP - P.RP) * (s.v * P.Vref) ^ 2 / beta) * (sin d - sin d') := by
  obtain ⟨_, hR, hGM, hrho, _, _, _, _, hV, hτ, hV2, hτV, _⟩ := C01_planet_consistent name P hP
  obtain ⟨ρ, hρ⟩ : ∃ ρ, P.density atm (s.r * P.RP - P.RP) = ρ := ⟨_, rfl⟩
  have hL : (Vehicle.mk' m beta LD A alpha RN P atm u f st).Lbar s.r s.theta s.phi s.v = LD * (1 / 2 * ρ * s.v ^ 2 / beta) * P.RP := by
    simp only [Vehicle.Lbar, Vehicle.mk', Planet.rhobar, Planet.rho2, Planet.rho, hρ]
    rw [show (0.5 : ℝ) = 1 / 2 by norm_num]
    field_simp
  have hmb : (Vehicle.mk' m beta LD A alpha RN P atm u f st).mbar = 1 := by simp only [Vehicle.mk']; exact div_self hm.ne'
  generalize hW : Vehicle.mk' m beta LD A alpha RN P atm u f st = W at *
  obtain ⟨k, hk⟩ : ∃ k, cos s.gamma + 1e-2 = k := ⟨_, rfl⟩
  refine ⟨rfl, rfl, rfl, rfl, rfl, ?_, ?_⟩
  · have e : (W.EOM s t d).gamma - (W.EOM s t d').gamma = W.Lbar s.r s.theta s.phi s.v * (cos d - cos d') / s.v := by
      simp only [Vehicle.EOM, Vehicle.a_nbar, hmb, Lits.l00, zero_mul, add_zero, div_one]
      have key : ∀ L g x y z c c' v : ℝ, (L * c + g) / v + x + y + z - ((L * c' + g) / v + x + y + z) = L * (c - c') / v := by
        intros; ring
      exact key _ _ _ _ _ _ _ _
    rw [e, hL, hρ, ← hτV]
    field_simp
  · have e : (W.EOM s t d).psi - (W.EOM s t d').psi = W.Lbar s.r s.theta s.phi s.v * (sin d - sin d') / (s.v * k) := by
      simp only [Vehicle.EOM, Vehicle.a_wbar, hmb, hk, Lits.l00, zero_mul, add_zero, div_one]
      have key : ∀ L g x y z c c' v : ℝ, (L * c + g) / v - x + y + z - ((L * c' + g) / v - x + y + z) = L * (c - c') / v := by
        intros; ring
      exact key _ _ _ _ _ _ _ _
    rw [hk] at hg
    rw [e, hL, hρ, ← hτV, hk]
    field_simp

/-- C142: of two flights from the same state inside a shipped atmosphere, the one whose lift points further up soon has the greater
flight-path angle and is higher, whatever the atmosphere, the planet's rotation and the drag do. -/
theorem C142_lift_up_climbs (name : String) (F : AtmFile) (hF : (name, F) ∈ shippedFiles) (P : Planet)
    (hP : Planet.init name = .ok P) (atm : Atmosphere) (hatm : LoadedCubic P F.km (fileRows F) atm)
    (m beta LD A alpha RN : ℝ) (u : Bool) (f : ℝ → ℝ) (st : InitState) (hm : 0 < m) (hbe : 0 < beta) (hA : 0 < A) (hLD : 0 < LD)
    (hf : u = true → ContDiff ℝ 1 f) (d d' t₀ b b' : ℝ) (s : FState) (hs : Departure P s) (hin : s.r * P.RP - P.RP < P.hThres)
    (hv : 0 < s.v) (y y' : ℝ → FState) (S S' : Finset ℝ) (hb : t₀ < b) (hb' : t₀ < b') (hy0 : y t₀ = s) (hy0' : y' t₀ = s)
    (hy : SwitchedFlight (fun t x => (Vehicle.mk' m beta LD A alpha RN P atm u f st).EOM x t d) y t₀ b S)
    (hy' : SwitchedFlight (fun t x => (Vehicle.mk' m beta LD A alpha RN P atm u f st).EOM x t d') y' t₀ b' S') :
    (cos d' < cos d → ∀ᶠ t in nhdsWithin t₀ (Set.Ioi t₀), (y' t).gamma < (y t).gamma) ∧
    (cos d' < cos d → 0 < cos s.gamma → ∀ᶠ t in nhdsWithin t₀ (Set.Ioi t₀), (y' t).r < (y t).r) ∧
    (sin d' < sin d → 0 ≤ cos s.gamma → ∀ᶠ t in nhdsWithin t₀ (Set.Ioi t₀), (y' t).psi < (y t).psi) := by
  obtain ⟨_, hR, hGM, hrho, _, _, _, _, hV, hτ, hV2, hτV, _⟩ := C01_planet_consistent name P hP
  set V := Vehicle.mk' m beta LD A alpha RN P atm u f st with hVdef
  have hsm : ∀ e, ContDiffAt ℝ 1 (V.field e) s.toR7 := fun e =>
    field_smooth (shipped_smoothDrag name F hF P hP atm hatm m beta LD A alpha RN u f st s (fun hu => (hf hu).contDiffAt) hs.alt hin.ne)
      (departure_r hP hs) hs.v hs.phi hs.gamma ((C88_shipped_density_smooth name F hF P hP atm hatm).1 _ hs.alt.ne' hin.ne) e
  have hgne : cos s.gamma + 1e-2 ≠ 0 := fun h => hs.gamma (by norm_num at h ⊢; linarith)
  obtain ⟨e1, -, -, e4, -, e6, e7⟩ := C142_turning_rates name P hP m beta LD A alpha RN atm u f st hm hbe hA s t₀ d d' hs.v hgne
  rw [← hVdef] at e1 e4 e6 e7
  have hρ : 0 < P.density atm (s.r * P.RP - P.RP) := (C85_density_positive name F hF P hP atm hatm _).mpr hin.le
  have hn : 0 < LD * (1 / 2 * P.density atm (s.r * P.RP - P.RP) * (s.v * P.Vref) ^ 2 / beta) := by positivity
  obtain ⟨q1, q2⟩ := rates_after hb hy0 hy (hsm d)
  obtain ⟨q1', q2'⟩ := rates_after hb' hy0' hy' (hsm d')
  set c := min b b' with hc
  have htc : t₀ < c := lt_min hb hb'
  have hyc := flight_mono hy le_rfl (min_le_left b b')
  have hyc' := flight_mono hy' le_rfl (min_le_right b b')
  rw [← hc] at hyc hyc'
  have comp : ∀ (e : ℝ) (z : ℝ → FState), Tendsto (fun t => (V.EOM (z t) t e).toR7) (nhdsWithin t₀ (Set.Ioi t₀))
      (nhds (V.EOM s t₀ e).toR7) →
      Tendsto (fun t => (V.EOM (z t) t e).v) (nhdsWithin t₀ (Set.Ioi t₀)) (nhds (V.EOM s t₀ e).v) ∧
      Tendsto (fun t => (V.EOM (z t) t e).psi) (nhdsWithin t₀ (Set.Ioi t₀)) (nhds (V.EOM s t₀ e).psi) ∧
      Tendsto (fun t => (V.EOM (z t) t e).gamma) (nhdsWithin t₀ (Set.Ioi t₀)) (nhds (V.EOM s t₀ e).gamma) := by
    intro e z hz
    have k : ∀ g : R7 → ℝ, Continuous g → Tendsto (fun t => g (V.EOM (z t) t e).toR7) (nhdsWithin t₀ (Set.Ioi t₀))
        (nhds (g (V.EOM s t₀ e).toR7)) := fun g hg => (hg.tendsto _).comp hz
    exact ⟨k (fun x => x.2.2.2.1) (by fun_prop), k (fun x => x.2.2.2.2.1) (by fun_prop), k (fun x => x.2.2.2.2.2.1) (by fun_prop)⟩
  obtain ⟨cv, cp, cg⟩ := comp d y q2
  obtain ⟨cv', cp', cg'⟩ := comp d' y' q2'
  -- limits of the rates
  have hgam : cos d' < cos d → (V.EOM s t₀ d').gamma < (V.EOM s t₀ d).gamma := by
    intro hcos
    have : 0 < (s.v * P.Vref) * (((V.EOM s t₀ d).gamma - (V.EOM s t₀ d').gamma) / P.tau) := by
      rw [e6]; exact mul_pos hn (by linarith)
    have h2 := pos_of_mul_pos_right this (by positivity)
    have h3 : 0 < (V.EOM s t₀ d).gamma - (V.EOM s t₀ d').gamma := by
      by_contra hneg
      exact absurd h2 (not_lt.mpr (div_nonpos_of_nonpos_of_nonneg (not_lt.mp hneg) hτ.le))
    linarith
  refine ⟨fun hcos => ?_, fun hcos hcg => ?_, fun hsin hcg => ?_⟩
  · exact above_after htc hyc.gamma hyc'.gamma (by rw [hy0, hy0']) (q1.mono fun t h => h.gamma) (q1'.mono fun t h => h.gamma)
      cg cg' (hgam hcos)
  · -- vertical speed first
    have cont : ∀ (e : ℝ) (z : ℝ → FState) (T : Finset ℝ), SwitchedFlight (fun t x => V.EOM x t e) z t₀ c T →
        ContinuousOn (fun t => (z t).v * sin (z t).gamma) (Set.Icc t₀ c) := fun e z T hz =>
      hz.v.mul (continuous_sin.comp_continuousOn hz.gamma)
    have der : ∀ (e : ℝ) (z : ℝ → FState) (t : ℝ), SolvesAt (fun x => V.EOM x t e) z t →
        HasDerivAt (fun t => (z t).v * sin (z t).gamma) ((V.EOM (z t) t e).v * sin (z t).gamma +
          (z t).v * (cos (z t).gamma * (V.EOM (z t) t e).gamma)) t := fun e z t hz => hz.v.mul hz.gamma.sin
    have lims : ∀ (e : ℝ) (z : ℝ → FState) (T : Finset ℝ), z t₀ = s → SwitchedFlight (fun t x => V.EOM x t e) z t₀ c T →
        Tendsto (fun t => (V.EOM (z t) t e).v) (nhdsWithin t₀ (Set.Ioi t₀)) (nhds (V.EOM s t₀ e).v) →
        Tendsto (fun t => (V.EOM (z t) t e).gamma) (nhdsWithin t₀ (Set.Ioi t₀)) (nhds (V.EOM s t₀ e).gamma) →
        Tendsto (fun t => (V.EOM (z t) t e).v * sin (z t).gamma + (z t).v * (cos (z t).gamma * (V.EOM (z t) t e).gamma))
          (nhdsWithin t₀ (Set.Ioi t₀)) (nhds ((V.EOM s t₀ e).v * sin s.gamma + s.v * (cos s.gamma * (V.EOM s t₀ e).gamma))) := by
      intro e z T hz0 hz hv hg
      have h1 := flight_right hz htc
      rw [hz0] at h1
      have k : ∀ g : R7 → ℝ, Continuous g → Tendsto (fun t => g (z t).toR7) (nhdsWithin t₀ (Set.Ioi t₀)) (nhds (g s.toR7)) :=
        fun g hg => (hg.tendsto _).comp h1
      have k1 := k (fun x => x.2.2.2.1) (by fun_prop)
      have k2 := k (fun x => x.2.2.2.2.2.1) (by fun_prop)
      exact (hv.mul ((continuous_sin.tendsto _).comp k2)).add (k1.mul (((continuous_cos.tendsto _).comp k2).mul hg))
    have hw := above_after htc (cont d y S hyc) (cont d' y' S' hyc') (by rw [hy0, hy0']) (q1.mono fun t h => der d y t h)
      (q1'.mono fun t h => der d' y' t h) (lims d y S hy0 hyc cv cg) (lims d' y' S' hy0' hyc' cv' cg') (by
        rw [e4]
        have := mul_lt_mul_of_pos_left (mul_lt_mul_of_pos_left (hgam hcos) hcg) hv
        linarith)
    have := positive_after (d := fun t => (y t).r - (y' t).r) htc (hyc.r.sub hyc'.r) (by simp [hy0, hy0']) (by
      filter_upwards [hw, q1, q1'] with t h1 h2 h3
      exact ⟨_, sub_pos.mpr h1, h2.r.sub h3.r⟩)
    filter_upwards [this] with t ht
    linarith
  · refine above_after htc hyc.psi hyc'.psi (by rw [hy0, hy0']) (q1.mono fun t h => h.psi) (q1'.mono fun t h => h.psi) cp cp' ?_
    have hk : 0 < cos s.gamma + 1e-2 := by norm_num; linarith
    have : 0 < (s.v * P.Vref) * (cos s.gamma + 1e-2) * (((V.EOM s t₀ d).psi - (V.EOM s t₀ d').psi) / P.tau) := by
      rw [e7]; exact mul_pos hn (by linarith)
    have h2 := pos_of_mul_pos_right this (by positivity)
    have h3 : 0 < (V.EOM s t₀ d).psi - (V.EOM s t₀ d').psi := by
      by_contra hneg
      exact absurd h2 (not_lt.mpr (div_nonpos_of_nonpos_of_nonneg (not_lt.mp hneg) hτ.le))
    linarith

/-- Hypotheses of `C142_lift_up_climbs` met: 100 km above Venus, descending, flown full lift up, full lift down and on its side. -/
example : ∃ (P : Planet) (atm : Atmosphere) (y up side : ℝ → FState) (b : ℝ), Planet.init "VENUS" = .ok P ∧ 0 < b ∧
    y 0 = ⟨1 + 100000 / P.RP, 0, 0, 9 / 10, 0, -(1 / 10), 0⟩ ∧ up 0 = y 0 ∧ side 0 = y 0 ∧
    SwitchedFlight (fun t x => (Vehicle.mk' 1000 100 0.2 10 0 1 P atm false demoCurve ⟨0, 0, 0, 0, 0, 0, 0, 0⟩).EOM x t π) y 0 b ∅ ∧
    SwitchedFlight (fun t x => (Vehicle.mk' 1000 100 0.2 10 0 1 P atm false demoCurve ⟨0, 0, 0, 0, 0, 0, 0, 0⟩).EOM x t 0) up 0 b ∅ ∧
    SwitchedFlight (fun t x => (Vehicle.mk' 1000 100 0.2 10 0 1 P atm false demoCurve ⟨0, 0, 0, 0, 0, 0, 0, 0⟩).EOM x t (π / 2)) side 0 b ∅ ∧
    (∀ᶠ t in nhdsWithin 0 (Set.Ioi 0), (y t).gamma < (up t).gamma ∧ (y t).r < (side t).r ∧ (side t).r < (up t).r ∧
      (up t).psi < (side t).psi) := by
  obtain ⟨P, hP⟩ := (C01_planet_names "VENUS").1.mpr (by simp [Spec.bodies])
  have hF : ("VENUS", Data.venus) ∈ shippedFiles := by simp [shippedFiles]
  obtain ⟨atm, hatm⟩ := (C85_loads "VENUS" Data.venus hF P hP).1
  have hRP : 0 < P.RP := (C01_planet_consistent "VENUS" P hP).2.1
  have hT : P.hThres = 180000 := by simp [Planet.init] at hP; subst hP; norm_num [Planet.withScales]
  have halt : (1 + 100000 / P.RP) * P.RP - P.RP = 100000 := by field_simp; ring
  have hcos : 0 < cos (-(1 / 10) : ℝ) := cos_pos_of_mem_Ioo ⟨by linarith [two_le_pi], by linarith [two_le_pi]⟩
  have hs : Departure P ⟨1 + 100000 / P.RP, 0, 0, 9 / 10, 0, -(1 / 10), 0⟩ :=
    ⟨by norm_num, by simp, by intro h; rw [h] at hcos; norm_num at hcos, by simp only [halt]; norm_num,
      by simp only [halt, hT]; norm_num⟩
  have fl := fun d : ℝ => (C88_forward_flight "VENUS" Data.venus hF P hP atm hatm 1000 100 0.2 10 0 1 false demoCurve
    ⟨0, 0, 0, 0, 0, 0, 0, 0⟩ (by simp) d 0 _ hs).1
  obtain ⟨y, b₁, hb₁, hy0, -, hy⟩ := fl π
  obtain ⟨up, b₂, hb₂, hu0, -, hu⟩ := fl 0
  obtain ⟨sd, b₃, hb₃, hs0, -, hsd⟩ := fl (π / 2)
  have key := fun d d' b b' y y' => C142_lift_up_climbs "VENUS" Data.venus hF P hP atm hatm 1000 100 0.2 10 0 1 false demoCurve
    ⟨0, 0, 0, 0, 0, 0, 0, 0⟩ (by norm_num) (by norm_num) (by norm_num) (by norm_num) (by simp) d d' 0 b b' _ hs
    (by simp only [halt, hT]; norm_num) (by norm_num) y y' ∅ ∅
  have k1 := key 0 π b₂ b₁ up y hb₂ hb₁ hu0 hy0 hu hy
  have k2 := key (π / 2) π b₃ b₁ sd y hb₃ hb₁ hs0 hy0 hsd hy
  have k3 := key 0 (π / 2) b₂ b₃ up sd hb₂ hb₃ hu0 hs0 hu hsd
  have k4 := key (π / 2) 0 b₃ b₂ sd up hb₃ hb₂ hs0 hu0 hsd hu
  refine ⟨P, atm, y, up, sd, min b₁ (min b₂ b₃), hP, lt_min hb₁ (lt_min hb₂ hb₃), hy0, hu0.trans hy0.symm, hs0.trans hy0.symm,
    flight_mono hy le_rfl (min_le_left _ _), flight_mono hu le_rfl ((min_le_right _ _).trans (min_le_left _ _)),
    flight_mono hsd le_rfl ((min_le_right _ _).trans (min_le_right _ _)), ?_⟩
  filter_upwards [k1.1 (by rw [cos_zero, cos_pi]; norm_num), k2.2.1 (by rw [cos_pi_div_two, cos_pi]; norm_num) hcos,
    k3.2.1 (by rw [cos_zero, cos_pi_div_two]; norm_num) hcos, k4.2.2 (by rw [sin_zero, sin_pi_div_two]; norm_num) hcos.le]
    with t a1 a2 a3 a4 using ⟨a1, a2, a3, a4⟩

end AMAT.Props
