import Verif.Props.GuidedContinuation
import Verif.Props.PullUp
import Verif.Props.PeakLoads

/-
Property C145: a vehicle cannot stay in the atmosphere at more than a given speed for longer than a time that follows from its
energy, its ballistic coefficient and the least density; in that time a guided flight leaves the atmosphere or ends.
-/

noncomputable section

open Real

namespace AMAT.Spec

/-- Energy of a vehicle at rest in the lowest place that the planet's atmosphere offers, at least: the whole potential at the
surface and the rotation at the edge of the atmosphere. -/
def restEnergy (P : Planet) : ℝ := -(1 + Props.zonal P) - P.OMEGAbar ^ 2 * (1 + P.hThres / P.RP) ^ 2 / 2

/-- Power of drag, per mass and in units of the body, on a vehicle of ballistic coefficient `beta` at the speed `v` in air of
density `rho`. -/
def dragPower (P : Planet) (beta rho v : ℝ) : ℝ := P.RP * rho * v ^ 3 / (2 * beta)

/-- The longest time, in units of `tau`, for which a vehicle of energy `J` stays in the atmosphere at no less than the speed `v`. -/
def passTime (P : Planet) (beta rho v J : ℝ) : ℝ := (J - restEnergy P) / dragPower P beta rho v

end AMAT.Spec

namespace AMAT.Props

open Real AMAT AMAT.Spec AMAT.Data AMAT.Spline AMAT.Lits AMAT.Piecewise

theorem rest_energy_least (name : String) (P : Planet) (hP : Planet.init name = .ok P) (r phi v : ℝ) (hr : 1 ≤ r)
    (ht : r * P.RP - P.RP ≤ P.hThres) : restEnergy P ≤ jacobi P.J2 P.J3 P.OMEGAbar r phi v := by
  obtain ⟨_, hR, _⟩ := C01_planet_consistent name P hP
  have h0 : 0 < r := by linarith
  have hz : 0 ≤ zonal P := by unfold zonal; positivity
  have hrt : r ≤ 1 + P.hThres / P.RP := by
    have : r - 1 ≤ P.hThres / P.RP := by
      rw [le_div_iff₀ hR]; linarith
    linarith
  have hU : potential P.J2 P.J3 r phi ≤ 1 + zonal P := by
    have h2 := potential_scaled P.J2 P.J3 hr phi
    have h3 : potential P.J2 P.J3 r phi * r ≤ 1 + zonal P := by
      refine h2.trans ?_
      have := abs_nonneg P.J2; have := abs_nonneg P.J3
      unfold zonal; linarith
    rw [← le_div_iff₀ h0] at h3
    exact h3.trans (div_le_self (by linarith) hr)
  have h4 : (P.OMEGAbar * r * cos phi) ^ 2 ≤ P.OMEGAbar ^ 2 * (1 + P.hThres / P.RP) ^ 2 := by
    rw [mul_pow, mul_pow]
    refine le_trans (mul_le_of_le_one_right (by positivity) (cos_sq_le_one _)) ?_
    exact mul_le_mul_of_nonneg_left (pow_le_pow_left₀ h0.le hrt 2) (sq_nonneg _)
  have h5 : jacobi P.J2 P.J3 P.OMEGAbar r phi v
      = v ^ 2 / 2 - potential P.J2 P.J3 r phi - (P.OMEGAbar * r * cos phi) ^ 2 / 2 := by
    unfold jacobi; ring
  rw [h5, restEnergy]
  have := sq_nonneg v
  linarith

/-- C145: a flight that stays at `h0` or higher, inside the atmosphere and at least at the speed `v0` lasts at most the energy
available over the least power of drag there, whatever the bank angles. -/
theorem C145_slows_down (name : String) (P : Planet)
    (hP : Planet.init name = .ok P) (m beta LD A alpha RN : ℝ) (atm : Atmosphere) (f : ℝ → ℝ)
    (st : InitState) (hm : 0 < m) (hb : 0 < beta) (hA : 0 < A) (delta : ℝ → ℝ) (y : ℝ → FState)
    (a b rho h0 v0 : ℝ) (hab : a ≤ b) (S : Finset ℝ) (hrho : 0 < rho) (hh0 : 0 ≤ h0) (hv0 : 0 < v0)
    (hatm : ∀ h, h0 ≤ h → h ≤ P.hThres → rho ≤ atm.densityInt h)
    (hy : SwitchedFlight (fun t s => (Vehicle.mk' m beta LD A alpha RN P atm false f st).EOM s t (delta t)) y a b S)
    (hlow : ∀ t ∈ Set.Icc a b, h0 ≤ (y t).r * P.RP - P.RP) (hin : ∀ t ∈ Set.Icc a b, (y t).r * P.RP - P.RP ≤ P.hThres)
    (hv : ∀ t ∈ Set.Icc a b, v0 ≤ (y t).v) :
    b - a ≤ passTime P beta rho v0 (jacobi P.J2 P.J3 P.OMEGAbar (y a).r (y a).phi (y a).v) := by
  obtain ⟨_, hR, _⟩ := C01_planet_consistent name P hP
  have hr : ∀ t ∈ Set.Icc a b, 1 ≤ (y t).r := by
    intro t ht
    have := hlow t ht
    by_contra hn
    have := mul_lt_mul_of_pos_right (not_le.mp hn) hR
    linarith
  set c := dragPower P beta rho v0 with hc
  have hc0 : 0 < c := by rw [hc, dragPower]; positivity
  have hanti : AntitoneOn (fun t => jacobi P.J2 P.J3 P.OMEGAbar (y t).r (y t).phi (y t).v + c * t) (Set.Icc a b) := by
    refine antitoneOn_off _ S a b ((jacobi_continuousOn P hy (fun t ht => by have := hr t ht; linarith)).add (by fun_prop))
      fun t ht hS => ?_
    have ht' := Set.Ioo_subset_Icc_self ht
    have hrt := hr t ht'
    refine ⟨_, ?_, (C18_energy_rate_is_minus_drag_power name P hP m beta LD A alpha RN atm f st hm hb hA (delta t) y t
      (hy.solves t ht hS) (by linarith)).add ((hasDerivAt_id t).const_mul c)⟩
    have hd : rho ≤ P.rho atm ((y t).r * P.RP) (y t).theta (y t).phi := by
      have hh : 0 ≤ (y t).r * P.RP - P.RP := hh0.trans (hlow t ht')
      simp only [Planet.rho, Planet.density, if_pos (show 0 ≤ (y t).r * P.RP - P.RP ∧ _ from ⟨hh, hin t ht'⟩)]
      exact hatm _ (hlow t ht') (hin t ht')
    have h1 : c ≤ P.RP * P.rho atm ((y t).r * P.RP) (y t).theta (y t).phi * (y t).v ^ 3 / (2 * beta) := by
      rw [hc, dragPower]
      refine div_le_div_of_nonneg_right ?_ (by positivity)
      exact mul_le_mul (mul_le_mul_of_nonneg_left hd hR.le) (pow_le_pow_left₀ hv0.le (hv t ht') 3) (by positivity)
        (mul_nonneg hR.le (hrho.le.trans hd))
    linarith
  have h1 := hanti ⟨le_rfl, hab⟩ ⟨hab, le_rfl⟩ hab
  simp only at h1
  have h2 := rest_energy_least name P hP (y b).r (y b).phi (y b).v (hr b ⟨hab, le_rfl⟩) (hin b ⟨hab, le_rfl⟩)
  rw [passTime, ← hc, le_div_iff₀ hc0]
  linarith

/-- C145: whatever bank angles a guidance law commands, a vehicle inside a shipped atmosphere leaves the atmosphere or meets an
obstacle — it comes down to the altitude `h0`, slows down to the speed `v0`, comes near a pole or near vertical flight, or is
almost horizontal near the edge of the atmosphere — and the time until then is at most `passTime`. -/
theorem C145_guided_pass_ends (name : String) (F : AtmFile) (hF : (name, F) ∈ shippedFiles) (P : Planet)
    (hP : Planet.init name = .ok P) (atm : Atmosphere) (hatm : LoadedCubic P F.km (fileRows F) atm)
    (m beta LD A alpha RN : ℝ) (f : ℝ → ℝ) (st : InitState) (hm : 0 < m) (hb : 0 < beta) (hA : 0 < A)
    (T rho h0 v0 c η : ℝ) (hT : 0 < T) (hrho : 0 < rho) (hh : 0 < h0) (hv : 0 < v0) (hc : 0 < c) (hη : 0 < η)
    (hdens : ∀ h, h0 ≤ h → h ≤ P.hThres → rho ≤ atm.densityInt h)
    (law : ℕ → (ℝ → FState) → ℝ) (hlaw : Causal T law) (s : FState) (hs : Clear P h0 v0 c η s) :
    ∃ (y : ℝ → FState) (b : ℝ) (S : Finset ℝ), y 0 = s ∧
      SwitchedFlight (fun t s => (Vehicle.mk' m beta LD A alpha RN P atm false f st).EOM s t (commanded T law y t)) y 0 b S ∧
      (∃ t ∈ Set.Icc 0 b, ¬ Clear P h0 v0 c η (y t) ∨ P.hThres < (y t).r * P.RP - P.RP) ∧
      ∀ x ∈ Set.Icc 0 b, (∀ t ∈ Set.Icc 0 x, Clear P h0 v0 c η (y t) ∧ (y t).r * P.RP - P.RP ≤ P.hThres) →
        x ≤ passTime P beta rho v0 (jacobi P.J2 P.J3 P.OMEGAbar s.r s.phi s.v) := by
  obtain ⟨_, hR, _⟩ := C01_planet_consistent name P hP
  set B := passTime P beta rho v0 (jacobi P.J2 P.J3 P.OMEGAbar s.r s.phi s.v) with hB
  obtain ⟨N, hN⟩ := exists_nat_gt (max B 0 / T)
  rw [div_lt_iff₀ hT] at hN
  obtain ⟨y, b, S, -, y0, hy, hend⟩ := C100_guided_flight name F hF P hP atm hatm m beta LD A alpha RN false
    (fun _ => 0) st hm hb hA (fun h => absurd h (by simp)) (fun _ => le_rfl) T h0 v0 c η hT hh hv hc hη law hlaw N s hs
  have hy' : SwitchedFlight (fun t s => (Vehicle.mk' m beta LD A alpha RN P atm false f st).EOM s t (commanded T law y t))
      y 0 b S := hy
  have hshort : ∀ x ∈ Set.Icc 0 b, (∀ t ∈ Set.Icc 0 x, Clear P h0 v0 c η (y t) ∧ (y t).r * P.RP - P.RP ≤ P.hThres) →
      x ≤ B := by
    intro x hx hall
    have := C145_slows_down name P hP m beta LD A alpha RN atm f st hm hb hA (commanded T law y) y 0 x rho h0 v0 hx.1 S hrho
      hh.le hv hdens (flight_mono hy' le_rfl hx.2) (fun t ht => (hall t ht).1.low) (fun t ht => (hall t ht).2)
      (fun t ht => (hall t ht).1.slow)
    rw [y0, sub_zero] at this
    exact this
  refine ⟨y, b, S, y0, hy', ?_, hshort⟩
  rcases hend with ⟨e, hcl⟩ | ⟨τ, hτ, hcl, hun⟩
  · by_contra hn
    push Not at hn
    have hb0 : 0 ≤ b := by rw [e]; positivity
    have := hshort b ⟨hb0, le_rfl⟩ hn
    have := le_max_left B 0
    linarith
  · obtain ⟨t, ht, htb, hnc⟩ := hun 1 one_pos
    exact ⟨t, ⟨hτ.1.trans ht.1.le, htb⟩, Or.inl hnc⟩

/-- C145: in every shipped atmosphere the density has a positive lower bound above every positive altitude, and so `passTime`
bounds every pass. -/
theorem C145_least_density (name : String) (F : AtmFile) (hF : (name, F) ∈ shippedFiles) (P : Planet)
    (hP : Planet.init name = .ok P) (atm : Atmosphere) (hatm : LoadedCubic P F.km (fileRows F) atm) (h0 : ℝ) (hh0 : 0 < h0) :
    ∃ rho > 0, ∀ h, h0 ≤ h → h ≤ P.hThres → rho ≤ atm.densityInt h := by
  rcases lt_or_ge P.hThres h0 with hlt | hge
  · exact ⟨1, one_pos, fun h h1 h2 => absurd (h1.trans h2) (not_le.mpr hlt)⟩
  obtain ⟨x, hx, hmin⟩ := isCompact_Icc.exists_isMinOn (Set.nonempty_Icc.mpr hge) (f := fun h => atm.densityInt (min h P.hThres))
    fun h hh => (capped_continuousAt hF hP hatm (lt_of_lt_of_le hh0 hh.1)).continuousWithinAt
  have e : ∀ h ∈ Set.Icc h0 P.hThres, atm.densityInt (min h P.hThres) = P.density atm h := by
    intro h hh
    rw [min_eq_left hh.2, Planet.density, if_pos ⟨hh0.le.trans hh.1, hh.2⟩]
  refine ⟨P.density atm x, ?_, fun h h1 h2 => ?_⟩
  · exact (C85_density_positive name F hF P hP atm hatm x).mpr hx.2
  · have := isMinOn_iff.mp hmin h ⟨h1, h2⟩
    rw [e x hx, min_eq_left h2] at this
    exact this

/-- Case for `C145_slows_down` and `C145_least_density` (used in the other theorem) and `C145_guided_pass_ends`: a lifting
Mars entry at 120 km whose bank angle is a hundred times the flight-path angle at the beginning of each cycle of 50 s. -/
example : ∃ (P : Planet) (atm : Atmosphere) (y : ℝ → FState) (b rho : ℝ) (S : Finset ℝ),
    Planet.init "MARS" = .ok P ∧ LoadedCubic P mars.km (fileRows mars) atm ∧ 0 < rho ∧
    y 0 = ⟨1 + P.hThres / P.RP, 0, 0, 1, 0, -0.2, 0⟩ ∧
    SwitchedFlight (fun t s => (Vehicle.mk' 1000 100 0.2 10 0 1 P atm false demoCurve ⟨0, 0, 0, 0, 0, 0, 0, 0⟩).EOM s t
      (100 * (y (⌊t / (50 / P.tau)⌋₊ * (50 / P.tau))).gamma)) y 0 b S ∧
    (∃ t ∈ Set.Icc 0 b, ¬ Clear P 1000 0.01 0.01 1 (y t) ∨ P.hThres < (y t).r * P.RP - P.RP) ∧
    ∀ x ∈ Set.Icc 0 b, (∀ t ∈ Set.Icc 0 x, Clear P 1000 0.01 0.01 1 (y t) ∧ (y t).r * P.RP - P.RP ≤ P.hThres) →
      x ≤ passTime P 100 rho 0.01 (jacobi P.J2 P.J3 P.OMEGAbar (1 + P.hThres / P.RP) 0 1) := by
  obtain ⟨P, hP⟩ := (C01_planet_names "MARS").1.mpr (by simp [Spec.bodies])
  have hF : ("MARS", mars) ∈ shippedFiles := by simp [shippedFiles]
  obtain ⟨atm, hatm⟩ := (C85_loads "MARS" mars hF P hP).1
  obtain ⟨rho, hr0, hr⟩ := C145_least_density "MARS" mars hF P hP atm hatm 1000 (by norm_num)
  obtain ⟨-, he⟩ := mars_entry hP
  have hT : P.hThres = 120e3 := by
    simp [Planet.init] at hP; subst hP; norm_num [Planet.withScales]
  have htau : 0 < P.tau := (C01_planet_consistent "MARS" P hP).2.2.2.2.2.2.2.2.2.1
  have hg : (0.01 : ℝ) ≤ cos (-0.2) := by
    have := one_sub_sq_div_two_le_cos (x := (-0.2 : ℝ))
    norm_num at this ⊢
    linarith
  have hsin : (0.01 : ℝ) ≤ |sin (-0.2)| := by
    have h2 := sin_gt_sub_cube (x := (0.2:ℝ)) (by norm_num)
    rw [sin_neg, abs_neg]
    refine le_trans ?_ (le_abs_self _)
    refine le_trans ?_ h2.le
    norm_num
  have hclear : Clear P 1000 0.01 0.01 1 ⟨1 + P.hThres / P.RP, 0, 0, 1, 0, -0.2, 0⟩ :=
    ⟨by change 1000 ≤ (1 + P.hThres / P.RP) * P.RP - P.RP; rw [he, hT]; norm_num, by norm_num,
      by rw [cos_zero]; norm_num, hg, Or.inr hsin⟩
  have hp : 0 < 50 / P.tau := by positivity
  obtain ⟨y, b, S, h2, h3, h4, h5⟩ := C145_guided_pass_ends "MARS" mars hF P hP atm hatm 1000 100 0.2 10 0 1 demoCurve
    ⟨0, 0, 0, 0, 0, 0, 0, 0⟩ (by norm_num) (by norm_num) (by norm_num) (50 / P.tau) rho 1000 0.01 0.01 1 hp hr0 (by norm_num)
    (by norm_num) (by norm_num) (by norm_num) hr (fun k y => 100 * (y (k * (50 / P.tau))).gamma)
    (fun k y y' h => by simp only [h _ ⟨by positivity, le_rfl⟩]) _ hclear
  exact ⟨P, atm, y, b, rho, S, hP, hatm, hr0, h2, h3, h4, h5⟩

end AMAT.Props
