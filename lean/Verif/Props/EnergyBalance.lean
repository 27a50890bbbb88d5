import Verif.Props.PeakLoads
import Mathlib.MeasureTheory.Integral.DivergenceTheorem
import Mathlib.Algebra.QuadraticDiscriminant

/-
C112: the energy a vehicle loses is the work of drag, and bounds its convective heat load.
-/

noncomputable section

open Real

namespace AMAT.Spec

/-- Specific energy (J/kg) in the frame of the rotating planet of a vehicle at a state given in the units of the code: kinetic
energy, gravity with the terms `J2` and `J3`, centrifugal potential. -/
def specificEnergy (P : Planet) (s : FState) : ℝ :=
  (s.v * P.Vref) ^ 2 / 2
    - P.GM / (s.r * P.RP) * (1 - P.J2 * (P.RP / (s.r * P.RP)) ^ 2 * ((3 * sin s.phi ^ 2 - 1) / 2)
      - P.J3 * (P.RP / (s.r * P.RP)) ^ 3 * ((5 * sin s.phi ^ 3 - 3 * sin s.phi) / 2))
    - (P.OMEGA * (s.r * P.RP * cos s.phi)) ^ 2 / 2

end AMAT.Spec

namespace AMAT.Props

open Real AMAT AMAT.Spec AMAT.Data AMAT.Lits MeasureTheory Filter Topology

theorem specificEnergy_eq {name : String} {P : Planet} (hP : Planet.init name = .ok P) {s : FState} (hr : s.r ≠ 0) :
    specificEnergy P s = P.Vref ^ 2 * jacobi P.J2 P.J3 P.OMEGAbar s.r s.phi s.v := by
  obtain ⟨_, hR, _, _, _, _, _, _, hV, htau, hVR, htV, hOm, _⟩ := C01_planet_consistent name P hP
  have hO : P.OMEGAbar * P.Vref = P.OMEGA * P.RP := by rw [hOm, mul_assoc, htV]
  unfold specificEnergy jacobi potential
  rw [show (P.OMEGA * (s.r * P.RP * cos s.phi)) ^ 2 = (P.OMEGAbar * P.Vref) ^ 2 * (s.r * cos s.phi) ^ 2 by rw [hO]; ring,
    ← hVR]
  field_simp

/-- The density of the atmosphere along a curve above the surface gives integrable functions. -/
theorem flight_integrable {name : String} {F : AtmFile} (hF : (name, F) ∈ shippedFiles) {P : Planet}
    (hP : Planet.init name = .ok P) {atm : Atmosphere} (hatm : LoadedCubic P F.km (fileRows F) atm) {y : ℝ → FState} {T : ℝ}
    (hT : 0 ≤ T) (hcr : ContinuousOn (fun t => (y t).r) (Set.Icc 0 T)) (hcv : ContinuousOn (fun t => (y t).v) (Set.Icc 0 T))
    (hreg : ∀ t ∈ Set.Icc 0 T, 0 < (y t).r * P.RP - P.RP) {G : ℝ × ℝ → ℝ} (hG : Continuous G) :
    IntervalIntegrable (fun t => G (P.density atm ((y t).r * P.RP - P.RP), (y t).v)) volume 0 T := by
  have ha : ContinuousOn (fun t => (y t).r * P.RP - P.RP) (Set.Icc 0 T) :=
    (hcr.mul continuousOn_const).sub continuousOn_const
  have hd : ContinuousOn (fun t => atm.densityInt (min ((y t).r * P.RP - P.RP) P.hThres)) (Set.Icc 0 T) := fun t ht =>
    ContinuousAt.comp_continuousWithinAt (f := fun t => (y t).r * P.RP - P.RP)
      (g := fun h => atm.densityInt (min h P.hThres)) (capped_continuousAt hF hP hatm (hreg t ht)) (ha t ht)
  have h1 : ContinuousOn (fun t => G (atm.densityInt (min ((y t).r * P.RP - P.RP) P.hThres), (y t).v)) (Set.Icc 0 T) :=
    hG.comp_continuousOn (hd.prodMk hcv)
  have h2 : ContinuousOn (fun t => G (0, (y t).v)) (Set.Icc 0 T) := hG.comp_continuousOn (continuousOn_const.prodMk hcv)
  set A := Set.Icc 0 T ∩ (fun t => (y t).r * P.RP - P.RP) ⁻¹' Set.Iic P.hThres with hA
  have hAm : MeasurableSet A := (ha.preimage_isClosed_of_isClosed isClosed_Icc isClosed_Iic).measurableSet
  have i1 := (h1.integrableOn_Icc (μ := volume)).indicator hAm
  have i2 := (h2.integrableOn_Icc (μ := volume)).indicator hAm.compl
  rw [intervalIntegrable_iff_integrableOn_Icc_of_le hT]
  refine (i1.add i2).congr_fun (fun t ht => ?_) measurableSet_Icc
  have h0 := hreg t ht
  by_cases hc : (y t).r * P.RP - P.RP ≤ P.hThres
  · have hm : t ∈ A := ⟨ht, hc⟩
    have hn : t ∉ Aᶜ := fun h => h hm
    simp only [Pi.add_apply, Set.indicator_of_mem hm, Set.indicator_of_notMem hn, add_zero, min_eq_left hc]
    unfold Planet.density
    rw [if_pos ⟨h0.le, hc⟩]
  · have hn : t ∉ A := fun h => hc h.2
    have hm : t ∈ Aᶜ := hn
    simp only [Pi.add_apply, Set.indicator_of_mem hm, Set.indicator_of_notMem hn, zero_add]
    unfold Planet.density
    rw [if_neg fun h => hc h.2, if_pos (not_le.mp hc)]

/-- C112: the specific energy that a vehicle with constant drag coefficient loses on a flight of `tEnd` seconds, in the frame of
the rotating planet, is the integral over time of drag deceleration times speed, whatever the history of bank angles. -/
theorem C112_energy_balance (name : String) (F : AtmFile) (hF : (name, F) ∈ shippedFiles) (P : Planet)
    (hP : Planet.init name = .ok P) (atm : Atmosphere) (hatm : LoadedCubic P F.km (fileRows F) atm)
    (m beta LD A alpha RN : ℝ) (f : ℝ → ℝ) (st : InitState) (hm : 0 < m) (hb : 0 < beta) (hA : 0 < A) (delta : ℝ → ℝ)
    (tEnd : ℝ) (hT : 0 ≤ tEnd) (y : ℝ → FState) (S : Finset ℝ)
    (hy : SwitchedFlight (fun t s => (Vehicle.mk' m beta LD A alpha RN P atm false f st).EOM s t (delta t)) y 0
      (tEnd / P.tau) S)
    (hreg : ∀ t ∈ Set.Icc 0 (tEnd / P.tau), 0 < (y t).r * P.RP - P.RP) :
    specificEnergy P (y 0) - specificEnergy P (y (tEnd / P.tau)) = ∫ s in (0:ℝ)..tEnd,
      1 / 2 * P.density atm ((y (s / P.tau)).r * P.RP - P.RP) * ((y (s / P.tau)).v * P.Vref) ^ 2 / beta *
        ((y (s / P.tau)).v * P.Vref) := by
  obtain ⟨_, hR, _, _, _, _, _, _, hV, htau, hVR, htV, hOm, _⟩ := C01_planet_consistent name P hP
  have hT' : 0 ≤ tEnd / P.tau := by positivity
  have hr : ∀ t ∈ Set.Icc 0 (tEnd / P.tau), (y t).r ≠ 0 := by
    intro t ht h0
    have := hreg t ht
    rw [h0] at this
    linarith
  have hint := flight_integrable hF hP hatm hT' hy.r hy.v hreg
    (G := fun p => -(P.RP * p.1 * p.2 ^ 3 / (2 * beta))) (by fun_prop)
  have hftc := integral_eq_of_hasDerivAt_off_countable_of_le
    (fun s => jacobi P.J2 P.J3 P.OMEGAbar (y s).r (y s).phi (y s).v) _ hT' (s := (S : Set ℝ)) S.countable_toSet
    (jacobi_continuousOn P hy hr) (fun t ht => C18_energy_rate_is_minus_drag_power name P hP m beta LD A alpha RN atm f st
      hm hb hA (delta t) y t (hy.solves t ht.1 ht.2) (hr t (Set.Ioo_subset_Icc_self ht.1))) hint
  rw [specificEnergy_eq hP (hr 0 ⟨le_rfl, hT'⟩), specificEnergy_eq hP (hr _ ⟨hT', le_rfl⟩), ← mul_sub]
  rw [show jacobi P.J2 P.J3 P.OMEGAbar (y 0).r (y 0).phi (y 0).v -
    jacobi P.J2 P.J3 P.OMEGAbar (y (tEnd / P.tau)).r (y (tEnd / P.tau)).phi (y (tEnd / P.tau)).v =
    -(jacobi P.J2 P.J3 P.OMEGAbar (y (tEnd / P.tau)).r (y (tEnd / P.tau)).phi (y (tEnd / P.tau)).v -
      jacobi P.J2 P.J3 P.OMEGAbar (y 0).r (y 0).phi (y 0).v) by ring, ← hftc, ← intervalIntegral.integral_neg]
  have hsub := intervalIntegral.integral_comp_div (a := 0) (b := tEnd) (fun t =>
    1 / 2 * P.density atm ((y t).r * P.RP - P.RP) * ((y t).v * P.Vref) ^ 2 / beta * ((y t).v * P.Vref)) htau.ne'
  rw [hsub, zero_div, smul_eq_mul, ← intervalIntegral.integral_const_mul, ← intervalIntegral.integral_const_mul]
  congr 1
  funext t
  unfold Planet.rho
  generalize P.density atm ((y t).r * P.RP - P.RP) = ρ
  rw [← htV]
  field_simp

/-- C112: on the bodies whose convective heating follows Sutton and Graves, the convective heat load of a flight is bounded by
the energy lost: its square is at most the square of the rate at unit density and speed, times twice the ballistic coefficient,
times the energy lost, times the integral of the cube of the speed. -/
theorem C112_convective_load_bounded (name : String) (F : AtmFile) (hF : (name, F) ∈ shippedFiles)
    (hbody : name ≠ "URANUS" ∧ name ≠ "NEPTUNE") (P : Planet)
    (hP : Planet.init name = .ok P) (atm : Atmosphere) (hatm : LoadedCubic P F.km (fileRows F) atm)
    (m beta LD A alpha RN : ℝ) (f : ℝ → ℝ) (st : InitState) (hm : 0 < m) (hb : 0 < beta) (hA : 0 < A)
    (delta : ℝ → ℝ) (tEnd : ℝ) (hT : 0 ≤ tEnd) (y : ℝ → FState) (S : Finset ℝ)
    (hy : SwitchedFlight (fun t s => (Vehicle.mk' m beta LD A alpha RN P atm false f st).EOM s t (delta t)) y 0
      (tEnd / P.tau) S)
    (hreg : ∀ t ∈ Set.Icc 0 (tEnd / P.tau), 0 < (y t).r * P.RP - P.RP ∧ 0 ≤ (y t).v) :
    ∃ qc, qConvFn P.ID = some qc ∧
      (∫ s in (0:ℝ)..tEnd, qc RN (P.density atm ((y (s / P.tau)).r * P.RP - P.RP)) ((y (s / P.tau)).v * P.Vref)) ^ 2 ≤
        qc RN 1 1 ^ 2 * (2 * beta) * (specificEnergy P (y 0) - specificEnergy P (y (tEnd / P.tau))) *
          ∫ s in (0:ℝ)..tEnd, ((y (s / P.tau)).v * P.Vref) ^ 3 := by
  obtain ⟨_, hR, _, _, _, _, _, _, hV, htau, hVR, htV, hOm, _⟩ := C01_planet_consistent name P hP
  have hT' : 0 ≤ tEnd / P.tau := by positivity
  obtain ⟨qc, qr, hc, -, lawc, -⟩ := C25_heat_laws name P hP
  refine ⟨qc, hc, ?_⟩
  -- the form of the law
  have hlaw : ∀ rho v : ℝ, 0 ≤ rho → 0 ≤ v → qc RN rho v = qc RN 1 1 * sqrt rho * v ^ 3 := by
    intro rho v h1 h2
    have e := (C01_planet_consistent name P hP).1
    have hs := (C01_planet_names name).1.mp ⟨_, hP⟩
    rw [e] at hc
    have sg : ∀ k : ℝ, k * (rho / RN) ^ (0.5:ℝ) * v ^ (3.0:ℝ) = k * (1 / RN) ^ (0.5:ℝ) * 1 ^ (3.0:ℝ) * sqrt rho * v ^ 3 := by
      intro k
      rw [show (0.5:ℝ) = 1 / 2 by norm_num, show (3.0:ℝ) = (3:ℕ) by norm_num, ← sqrt_eq_rpow, ← sqrt_eq_rpow, rpow_natCast,
        rpow_natCast, sqrt_div h1, sqrt_div zero_le_one, sqrt_one]
      ring
    simp only [Spec.bodies, List.mem_cons, List.not_mem_nil, or_false] at hs
    rcases hs with rfl | rfl | rfl | rfl | rfl | rfl | rfl | rfl
    iterate 6 (obtain rfl := Option.some.inj hc; exact sg _)
    · exact absurd rfl hbody.1
    · exact absurd rfl hbody.2
  set κ := qc RN 1 1 with hκ
  set ρ : ℝ → ℝ := fun t => P.density atm ((y t).r * P.RP - P.RP) with hρ
  set w : ℝ → ℝ := fun t => (y t).v * P.Vref with hw
  have hρ0 : ∀ t ∈ Set.Icc 0 (tEnd / P.tau), 0 ≤ ρ t := by
    intro t ht
    rcases le_or_gt ((y t).r * P.RP - P.RP) P.hThres with h | h
    · exact ((C85_density_positive name F hF P hP atm hatm _).mpr h).le
    · simp only [hρ]
      unfold Planet.density
      rw [if_neg fun hh => absurd hh.2 (not_le.mpr h), if_pos h]
  have hw0 : ∀ t ∈ Set.Icc 0 (tEnd / P.tau), 0 ≤ w t := fun t ht => mul_nonneg (hreg t ht).2 hV.le
  have hin : ∀ s ∈ Set.Icc 0 tEnd, s / P.tau ∈ Set.Icc 0 (tEnd / P.tau) := fun s hs =>
    ⟨div_nonneg hs.1 htau.le, div_le_div_of_nonneg_right hs.2 htau.le⟩
  have int : ∀ G : ℝ × ℝ → ℝ, Continuous G → IntervalIntegrable (fun s => G (ρ (s / P.tau), w (s / P.tau))) volume 0 tEnd := by
    intro G hG
    have := flight_integrable hF hP hatm hT' hy.r hy.v (fun t ht => (hreg t ht).1)
      (G := fun p => G (p.1, p.2 * P.Vref)) (by fun_prop)
    have h2 := IntervalIntegrable.comp_mul_right this (c := P.tau⁻¹)
    simpa only [zero_div, zero_mul, div_inv_eq_mul, div_mul_cancel₀ _ htau.ne', ← div_eq_mul_inv] using h2
  have i1 := int (fun p => p.1 * p.2 ^ 3) (by fun_prop)
  have i2 := int (fun p => sqrt p.1 * p.2 ^ 3) (by fun_prop)
  have i3 := int (fun p => p.2 ^ 3) (by fun_prop)
  -- energy lost
  have hE := C112_energy_balance name F hF P hP atm hatm m beta LD A alpha RN f st hm hb hA delta tEnd hT y S hy
    fun t ht => (hreg t ht).1
  have hE' : 2 * beta * (specificEnergy P (y 0) - specificEnergy P (y (tEnd / P.tau))) =
      ∫ s in (0:ℝ)..tEnd, ρ (s / P.tau) * w (s / P.tau) ^ 3 := by
    rw [hE, ← intervalIntegral.integral_const_mul]
    congr 1
    funext s
    change 2 * beta * (1 / 2 * ρ (s / P.tau) * w (s / P.tau) ^ 2 / beta * w (s / P.tau)) = _
    generalize ρ (s / P.tau) = a
    generalize w (s / P.tau) = b
    field_simp
  have hJ : (∫ s in (0:ℝ)..tEnd, qc RN (ρ (s / P.tau)) (w (s / P.tau))) =
      κ * ∫ s in (0:ℝ)..tEnd, sqrt (ρ (s / P.tau)) * w (s / P.tau) ^ 3 := by
    rw [← intervalIntegral.integral_const_mul]
    refine intervalIntegral.integral_congr fun s hs => ?_
    rw [Set.uIcc_of_le hT] at hs
    rw [hlaw _ _ (hρ0 _ (hin s hs)) (hw0 _ (hin s hs))]
    ring
  -- Cauchy-Schwarz
  have hq : ∀ x : ℝ, 0 ≤ (∫ s in (0:ℝ)..tEnd, ρ (s / P.tau) * w (s / P.tau) ^ 3) * (x * x) +
      (-2 * ∫ s in (0:ℝ)..tEnd, sqrt (ρ (s / P.tau)) * w (s / P.tau) ^ 3) * x + ∫ s in (0:ℝ)..tEnd, w (s / P.tau) ^ 3 := by
    intro x
    have e : (∫ s in (0:ℝ)..tEnd, ρ (s / P.tau) * w (s / P.tau) ^ 3) * (x * x) +
        (-2 * ∫ s in (0:ℝ)..tEnd, sqrt (ρ (s / P.tau)) * w (s / P.tau) ^ 3) * x + (∫ s in (0:ℝ)..tEnd, w (s / P.tau) ^ 3) =
        ∫ s in (0:ℝ)..tEnd, (sqrt (ρ (s / P.tau)) * x - 1) ^ 2 * w (s / P.tau) ^ 3 := by
      rw [← intervalIntegral.integral_mul_const, ← intervalIntegral.integral_const_mul, ← intervalIntegral.integral_mul_const,
        ← intervalIntegral.integral_add (i1.mul_const _) ((i2.const_mul _).mul_const _),
        ← intervalIntegral.integral_add ((i1.mul_const _).add ((i2.const_mul _).mul_const _)) i3]
      refine intervalIntegral.integral_congr fun s hs => ?_
      rw [Set.uIcc_of_le hT] at hs
      have := sq_sqrt (hρ0 _ (hin s hs))
      simp only
      rw [show (sqrt (ρ (s / P.tau)) * x - 1) ^ 2 = sqrt (ρ (s / P.tau)) ^ 2 * (x * x) - 2 * sqrt (ρ (s / P.tau)) * x + 1 by ring,
        this]
      ring
    rw [e]
    refine intervalIntegral.integral_nonneg hT fun s hs => ?_
    exact mul_nonneg (sq_nonneg _) (pow_nonneg (hw0 _ (hin s hs)) 3)
  have hd := discrim_le_zero hq
  unfold discrim at hd
  change (∫ s in (0:ℝ)..tEnd, qc RN (ρ (s / P.tau)) (w (s / P.tau))) ^ 2 ≤ _
  rw [hJ, mul_assoc (κ ^ 2), hE', mul_pow, mul_assoc (κ ^ 2)]
  refine mul_le_mul_of_nonneg_left ?_ (sq_nonneg _)
  change _ ≤ _ * ∫ s in (0:ℝ)..tEnd, w (s / P.tau) ^ 3
  nlinarith

/-- C112: on Mars and Titan, where the code reports no radiative heating, the heat loads reported for finer and finer samples of
a flight eventually stay below every number greater than the bound given by the energy lost, the greatest speed and the duration. -/
theorem C112_reported_load_bounded (name : String) (F : AtmFile) (hF : (name, F) ∈ shippedFiles)
    (hbody : name = "MARS" ∨ name = "TITAN") (P : Planet)
    (hP : Planet.init name = .ok P) (atm : Atmosphere) (hatm : LoadedCubic P F.km (fileRows F) atm)
    (m beta LD A alpha RN : ℝ) (f : ℝ → ℝ) (st : InitState) (hm : 0 < m) (hb : 0 < beta) (hA : 0 < A) (hRN : 0 < RN)
    (mode : ScipyMode) (deltaDeg tEnd vmax : ℝ) (hT : 0 ≤ tEnd) (y : ℝ → FState) (S : Finset ℝ)
    (hy : SwitchedFlight (fun t s => (Vehicle.mk' m beta LD A alpha RN P atm false f st).EOM s t (deltaDeg * π / 180.0)) y 0
      (tEnd / P.tau) S)
    (hreg : ∀ t ∈ Set.Icc 0 (tEnd / P.tau), Departure P (y t) ∧ 0 ≤ (y t).v ∧ (y t).v * P.Vref ≤ vmax)
    (hae : ∀ᵐ s ∂(volume : Measure ℝ), s ∈ Set.Ioo 0 tEnd → (y (s / P.tau)).r * P.RP - P.RP < P.hThres)
    (I : ℕ → Integrator) (tSec dt δ : ℕ → ℝ) (out : ℕ → PropOut) (k : ℕ → ℕ) (J : ℕ → ℝ) (z : ℕ → ℝ → FState)
    (S' : ℕ → Finset ℝ)
    (hI : ∀ n, OdeintLike (I n)) (hts : ∀ n, 0 ≤ tSec n) (hdt : ∀ n, 0 < dt n) (hdt0 : Tendsto dt atTop (𝓝 0))
    (hδ : Tendsto δ atTop (𝓝 0))
    (hz : ∀ n, NearFlight (fun t s => (Vehicle.mk' m beta LD A alpha RN P atm false f st).EOM s t (deltaDeg * π / 180.0))
      (z n) 0 (tEnd / P.tau) (S' n) (δ n)) (hz0 : ∀ n, Near (δ n) (z n 0) (y 0))
    (hrun : ∀ n, (Vehicle.mk' m beta LD A alpha RN P atm false f st).propogateEntry mode (I n) (tSec n) (dt n) deltaDeg
      = .ok (out n))
    (hk : ∀ n, k n < (out n).index) (hkT : ∀ n, k n * dt n ≤ tEnd) (hkl : Tendsto (fun n => k n * dt n) atTop (𝓝 tEnd))
    (hsamp : ∀ n, ∀ p ∈ (samples (Vehicle.mk' m beta LD A alpha RN P atm false f st) (I n) (tSec n) (dt n) deltaDeg).take
      (k n + 1), Near (δ n) p.2 (z n p.1) ∧ p.2.r * P.RP - P.RP ≤ P.hThres ∧ 0 ≤ p.2.v)
    (hJ : ∀ n, (out n).heatload[k n]? = some (J n)) :
    ∃ qc, qConvFn P.ID = some qc ∧ ∀ b, qc RN 1 1 * sqrt (2 * beta *
      (specificEnergy P (y 0) - specificEnergy P (y (tEnd / P.tau))) * (vmax ^ 3 * tEnd)) < b → ∀ᶠ n in atTop, J n < b := by
  obtain ⟨hID, hR, _, _, _, _, _, _, hV, htau, _⟩ := C01_planet_consistent name P hP
  have hT' : 0 ≤ tEnd / P.tau := by positivity
  have hjump : jumpSpeeds P.ID = [] := by rcases hbody with rfl | rfl <;> rw [hID] <;> simp [jumpSpeeds]
  obtain ⟨qc, qr, hc, hr, hlim⟩ := C105_heat_load_of_flight name F hF P hP atm hatm m beta LD A alpha RN false f st (by simp) hRN
    mode deltaDeg tEnd hT y S hy (fun t ht => (hreg t ht).1)
    (hae.mono fun s h hs => ⟨h hs, by rw [hjump]; exact List.not_mem_nil⟩) I tSec dt δ out k J z S' hI hts hdt hdt0 hδ hz hz0
    hrun hk hkT hkl hsamp hJ
  have hqr : ∀ a b c, qr a b c = 0 := by
    rw [hID] at hr
    intro a b c
    rcases hbody with rfl | rfl <;> (obtain rfl := Option.some.inj hr; rfl)
  simp only [hqr, add_zero] at hlim
  obtain ⟨qc', hc', hle⟩ := C112_convective_load_bounded name F hF (by rcases hbody with rfl | rfl <;> decide) P hP atm hatm m beta
    LD A alpha RN f st hm hb hA (fun _ => deltaDeg * π / 180.0) tEnd hT y S hy fun t ht => ⟨(hreg t ht).1.alt, (hreg t ht).2.1⟩
  obtain rfl : qc = qc' := Option.some.inj (hc.symm.trans hc')
  have hκ : 0 ≤ qc RN 1 1 := by
    rw [hID] at hc
    rcases hbody with rfl | rfl <;> (obtain rfl := Option.some.inj hc; positivity)
  have hE := C112_energy_balance name F hF P hP atm hatm m beta LD A alpha RN f st hm hb hA (fun _ => deltaDeg * π / 180.0) tEnd
    hT y S hy fun t ht => (hreg t ht).1.alt
  have hin : ∀ s ∈ Set.Icc 0 tEnd, s / P.tau ∈ Set.Icc 0 (tEnd / P.tau) := fun s hs =>
    ⟨div_nonneg hs.1 htau.le, div_le_div_of_nonneg_right hs.2 htau.le⟩
  have hE0 : 0 ≤ specificEnergy P (y 0) - specificEnergy P (y (tEnd / P.tau)) := by
    rw [hE]
    refine intervalIntegral.integral_nonneg hT fun s hs => ?_
    have hd : 0 ≤ P.density atm ((y (s / P.tau)).r * P.RP - P.RP) := by
      rcases le_or_gt ((y (s / P.tau)).r * P.RP - P.RP) P.hThres with h | h
      · exact ((C85_density_positive name F hF P hP atm hatm _).mpr h).le
      · unfold Planet.density
        rw [if_neg fun hh => absurd hh.2 (not_le.mpr h), if_pos h]
    have hv := (hreg _ (hin s hs)).2.1
    positivity
  have h3 : (∫ s in (0:ℝ)..tEnd, ((y (s / P.tau)).v * P.Vref) ^ 3) ≤ vmax ^ 3 * tEnd := by
    have hci : IntervalIntegrable (fun s => ((y (s / P.tau)).v * P.Vref) ^ 3) volume 0 tEnd := by
      refine ContinuousOn.intervalIntegrable ?_
      rw [Set.uIcc_of_le hT]
      exact ((ContinuousOn.comp hy.v (by fun_prop) hin).mul continuousOn_const).pow 3
    have := intervalIntegral.integral_mono_on hT hci (_root_.intervalIntegrable_const (c := vmax ^ 3)) fun s hs =>
      pow_le_pow_left₀ (mul_nonneg (hreg _ (hin s hs)).2.1 hV.le) (hreg _ (hin s hs)).2.2 3
    rw [intervalIntegral.integral_const, smul_eq_mul] at this
    linarith
  refine ⟨qc, hc, fun b hb' => hlim.eventually (gt_mem_nhds (lt_of_le_of_lt ?_ hb'))⟩
  refine le_of_sq_le_sq ?_ (by positivity)
  rw [mul_pow, sq_sqrt (mul_nonneg (by positivity) ((intervalIntegral.integral_nonneg hT fun s hs =>
    pow_nonneg (mul_nonneg (hreg _ (hin s hs)).2.1 hV.le) 3).trans h3))]
  refine hle.trans ?_
  calc qc RN 1 1 ^ 2 * (2 * beta) * (specificEnergy P (y 0) - specificEnergy P (y (tEnd / P.tau))) *
        (∫ s in (0:ℝ)..tEnd, ((y (s / P.tau)).v * P.Vref) ^ 3)
      ≤ qc RN 1 1 ^ 2 * (2 * beta) * (specificEnergy P (y 0) - specificEnergy P (y (tEnd / P.tau))) * (vmax ^ 3 * tEnd) :=
        mul_le_mul_of_nonneg_left h3 (by positivity)
    _ = _ := by ring

/-! ### Case -/

/-- Case for the three theorems: the runs of `mars_runs` for a vehicle with constant drag coefficient (100 km above Mars at
4 km/s); the energy lost is positive and the reported heat loads obey the bound. -/
theorem C112_mars_case : ∃ (P : Planet) (atm : Atmosphere) (y : ℝ → FState) (dt : ℝ) (out : ℕ → PropOut) (J : ℕ → ℝ)
    (qc : ℝ → ℝ → ℝ → ℝ),
    Planet.init "MARS" = .ok P ∧ LoadedCubic P mars.km (fileRows mars) atm ∧ 0 < dt ∧
    (∀ n : ℕ, (Vehicle.mk' 1000 100 0.2 10 0 1 P atm false demoCurve ⟨100, 0, 0, 4, 0, -10, 0, 0⟩).propogateEntry .strict
      (traceIntegrator y) dt (dt / (n + 1 : ℕ)) 60 = .ok (out n)) ∧
    (∀ n, (out n).heatload.getLast? = some (J n)) ∧ qConvFn "MARS" = some qc ∧
    0 < specificEnergy P (y 0) - specificEnergy P (y (dt / P.tau)) ∧
    ∀ b, qc 1 1 1 * sqrt (2 * 100 * (specificEnergy P (y 0) - specificEnergy P (y (dt / P.tau))) * ((2.4 * P.Vref) ^ 3 * dt)) < b
      → ∀ᶠ n in atTop, J n < b := by
  obtain ⟨P, atm, y, S, dt, out, hP, hatm, hdt, hyT, hsf, hsm, hout, hidx⟩ := mars_runs false
  have hF : ("MARS", mars) ∈ shippedFiles := by simp [shippedFiles]
  obtain ⟨hID, hR, _, _, _, _, _, _, hVr, htau, _⟩ := C01_planet_consistent "MARS" P hP
  have hTh : P.hThres = 120000 := by simp [Planet.init] at hP; subst hP; norm_num [Planet.withScales]
  set V := Vehicle.mk' 1000 100 0.2 10 0 1 P atm false demoCurve ⟨100, 0, 0, 4, 0, -10, 0, 0⟩ with hVdef
  have hd : ∀ n : ℕ, 0 < dt / (n + 1 : ℕ) := fun n => by positivity
  have hkd : ∀ n : ℕ, ((n + 1 : ℕ) : ℝ) * (dt / (n + 1 : ℕ)) = dt := fun n => mul_div_cancel₀ _ (by positivity)
  have hv0 : ∀ t ∈ Set.Icc 0 (dt / P.tau), 0 < (y t).v := fun t ht => by
    have := (hsf t ht).slow
    norm_num at this
    linarith
  have hJex : ∀ n, ∃ x, (out n).heatload[n + 1]? = some x ∧ (out n).heatload.getLast? = some x := by
    intro n
    obtain ⟨-, -, -, -, -, -, -, -, -, -, hl, -⟩ := C24_arrays_aligned V .strict _ dt _ 60 (out n) (hout n)
    have h1 : (out n).heatload.length = n + 2 := by rw [hl (out n).heatload (by simp), hidx]
    refine ⟨(out n).heatload[n + 1], List.getElem?_eq_getElem (by omega), ?_⟩
    rw [List.getLast?_eq_getElem?, show (out n).heatload.length - 1 = n + 1 by omega]
    exact List.getElem?_eq_getElem (by omega)
  choose J hJ hJl using hJex
  have hin : ∀ s ∈ Set.Icc 0 dt, s / P.tau ∈ Set.Icc 0 (dt / P.tau) := fun s hs =>
    ⟨div_nonneg hs.1 htau.le, div_le_div_of_nonneg_right hs.2 htau.le⟩
  have hE := C112_energy_balance "MARS" mars hF P hP atm hatm 1000 100 0.2 10 0 1 demoCurve ⟨100, 0, 0, 4, 0, -10, 0, 0⟩
    (by norm_num) (by norm_num) (by norm_num) (fun _ => 60 * π / 180.0) dt hdt.le y S hyT fun t ht => by linarith [(hsf t ht).low]
  have hpos : 0 < specificEnergy P (y 0) - specificEnergy P (y (dt / P.tau)) := by
    rw [hE]
    have hi := flight_integrable hF hP hatm (div_nonneg hdt.le htau.le) hyT.r hyT.v (fun t ht => by linarith [(hsf t ht).low])
      (G := fun p => 1 / 2 * p.1 * (p.2 * P.Vref) ^ 2 / 100 * (p.2 * P.Vref)) (by fun_prop)
    have h2 := IntervalIntegrable.comp_mul_right hi (c := P.tau⁻¹)
    simp only [zero_mul, div_inv_eq_mul, div_mul_cancel₀ _ htau.ne', ← div_eq_mul_inv] at h2
    refine intervalIntegral.intervalIntegral_pos_of_pos_on h2 (fun s hs => ?_) hdt
    have hs' := hin s (Set.Ioo_subset_Icc_self hs)
    have hd := (C85_density_positive "MARS" mars hF P hP atm hatm ((y (s / P.tau)).r * P.RP - P.RP)).mpr (by
      rw [hTh]; linarith [(hsf _ hs').high])
    have hv := hv0 _ hs'
    positivity
  obtain ⟨qc, hqc, hlim⟩ := C112_reported_load_bounded "MARS" mars hF (.inl rfl) P hP atm hatm 1000 100 0.2 10 0 1 demoCurve
    ⟨100, 0, 0, 4, 0, -10, 0, 0⟩ (by norm_num) (by norm_num) (by norm_num) one_pos .strict 60 dt (2.4 * P.Vref) hdt.le y S hyT
    (fun t ht => ⟨(hsf t ht).departure (by norm_num) (by norm_num) (by norm_num) (by norm_num), (hv0 t ht).le,
      mul_le_mul_of_nonneg_right (hsf t ht).fast hVr.le⟩)
    (ae_of_all _ fun s hs => by
      have := hsf (s / P.tau) (hin s (Set.Ioo_subset_Icc_self hs))
      rw [hTh]; linarith [this.high])
    (fun _ => traceIntegrator y) (fun _ => dt) (fun n => dt / (n + 1 : ℕ)) (fun _ => 0) out (fun n => n + 1) J (fun _ => y)
    (fun _ => S) (fun _ => traceIntegrator_ok y) (fun _ => hdt.le) hd
    (by
      have := tendsto_one_div_add_atTop_nhds_zero_nat (𝕜 := ℝ)
      have := this.const_mul dt
      rw [mul_zero] at this
      refine this.congr fun n => ?_
      push_cast
      ring)
    tendsto_const_nhds
    (fun _ => ⟨hyT.r, hyT.theta, hyT.phi, hyT.v, hyT.psi, hyT.gamma, hyT.drange, fun t ht hS =>
      ⟨V.EOM (y t) t (60 * π / 180.0), by
        have := hyT.solves t ht hS
        exact ⟨this.r, this.theta, this.phi, this.v, this.psi, this.gamma, this.drange⟩, by
        rw [near_iff, sub_self, norm_zero]⟩⟩)
    (fun _ => by rw [near_iff, sub_self, norm_zero]) hout (fun n => by rw [hidx]; omega) (fun n => (hkd n).le)
    (by simp only [hkd]; exact tendsto_const_nhds)
    (fun n p hp => by
      obtain ⟨h1, h2⟩ := hsm n p (List.mem_of_mem_take hp)
      refine ⟨by rw [h1, near_iff, sub_self, norm_zero], by rw [hTh]; linarith [h2.high], ?_⟩
      have := h2.slow
      norm_num at this
      linarith)
    hJ
  rw [hID] at hqc
  exact ⟨P, atm, y, dt, out, J, qc, hP, hatm, hdt, hout, hJl, hqc, hpos, hlim⟩

end AMAT.Props
