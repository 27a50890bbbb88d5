import Verif.Lemmas.Piecewise
import Verif.Spec.Switched
import Verif.Props.DragCurve
import Verif.Props.Equatorial

/-
Properties C18, C61, C87 and C97 for flights with bank angle switches, as flown by the guided simulations: the state
moves continuously, and the equations of motion hold except at the finitely many switching times.
-/

noncomputable section

open Real

namespace AMAT.Props

open Real AMAT AMAT.Spec AMAT.Data AMAT.Spline AMAT.Lits AMAT.Piecewise

/-! ### C18 -/

theorem jacobi_continuousOn (P : Planet) {F : ℝ → FState → FState} {y : ℝ → FState} {a b : ℝ} {S : Finset ℝ}
    (hy : SwitchedFlight F y a b S) (hr : ∀ t ∈ Set.Icc a b, (y t).r ≠ 0) :
    ContinuousOn (fun s => jacobi P.J2 P.J3 P.OMEGAbar (y s).r (y s).phi (y s).v) (Set.Icc a b) := by
  have c1 := hy.r; have c2 := hy.phi; have c3 := hy.v
  have e2 : ∀ t ∈ Set.Icc a b, (y t).r ^ 2 ≠ 0 := fun t ht => pow_ne_zero _ (hr t ht)
  have e3 : ∀ t ∈ Set.Icc a b, (y t).r ^ 3 ≠ 0 := fun t ht => pow_ne_zero _ (hr t ht)
  have e4 : ∀ t ∈ Set.Icc a b, (y t).r ^ 4 ≠ 0 := fun t ht => pow_ne_zero _ (hr t ht)
  unfold jacobi potential
  fun_prop (disch := assumption)

/-- The drag of a vehicle with non-negative drag coefficient is non-negative where the density is. -/
theorem drag_nonneg (name : String) (P : Planet)
    (hP : Planet.init name = .ok P) (m beta LD A alpha RN : ℝ) (atm : Atmosphere) (u : Bool) (f : ℝ → ℝ)
    (st : InitState) (hm : 0 < m) (hb : 0 < beta) (hA : 0 < A) (hf : ∀ M, 0 ≤ f M)
    (hatm : ∀ h, 0 ≤ h → h ≤ P.hThres → 0 ≤ atm.densityInt h) (r theta phi v : ℝ) :
    0 ≤ (Vehicle.mk' m beta LD A alpha RN P atm u f st).D r theta phi v := by
  have h1 := (C03_density_nonneg name P hP atm hatm r theta phi).1
  have hCD : 0 ≤ (Vehicle.mk' m beta LD A alpha RN P atm u f st).CD1 r v := by
    unfold Vehicle.CD1
    split_ifs
    · exact hf _
    · exact (div_pos hm (mul_pos hb hA)).le
  unfold Vehicle.D
  have h3 : 0 ≤ (Vehicle.mk' m beta LD A alpha RN P atm u f st).planet.rho
    (Vehicle.mk' m beta LD A alpha RN P atm u f st).atm r theta phi := h1
  have h4 : 0 ≤ (Vehicle.mk' m beta LD A alpha RN P atm u f st).A := hA.le
  rw [l05]
  positivity

/-- C18 for flights with bank angle switches (or other interruptions of the equations of motion at finitely many times),
for every vehicle with non-negative drag coefficient: the Jacobi energy never increases. -/
theorem C18_switched_never_increases (name : String) (P : Planet)
    (hP : Planet.init name = .ok P) (m beta LD A alpha RN : ℝ) (atm : Atmosphere) (u : Bool) (f : ℝ → ℝ)
    (st : InitState) (hm : 0 < m) (hb : 0 < beta) (hA : 0 < A) (hf : ∀ M, 0 ≤ f M) (delta : ℝ → ℝ) (y : ℝ → FState)
    (a b : ℝ) (S : Finset ℝ) (hatm : ∀ h, 0 ≤ h → h ≤ P.hThres → 0 ≤ atm.densityInt h)
    (hy : SwitchedFlight (fun t s => (Vehicle.mk' m beta LD A alpha RN P atm u f st).EOM s t (delta t)) y a b S)
    (hr : ∀ t ∈ Set.Icc a b, (y t).r ≠ 0) (hv : ∀ t ∈ Set.Icc a b, 0 ≤ (y t).v) :
    AntitoneOn (fun s => jacobi P.J2 P.J3 P.OMEGAbar (y s).r (y s).phi (y s).v) (Set.Icc a b) := by
  refine antitoneOn_off _ S a b (jacobi_continuousOn P hy hr) fun t ht hs => ?_
  have ht' := Set.Ioo_subset_Icc_self ht
  refine ⟨_, ?_, C18_rate_any_vehicle name P hP m beta LD A alpha RN atm u f st hm (delta t) y t (hy.solves t ht hs)
    (hr t ht')⟩
  obtain ⟨_, hR, _, _, _, _, _, _, hV, htau, _⟩ := C01_planet_consistent name P hP
  have hD := drag_nonneg name P hP m beta LD A alpha RN atm u f st hm hb hA hf hatm ((y t).r * P.RP) (y t).theta
    (y t).phi ((y t).v * P.Vref)
  have h2 := hv t ht'
  have : 0 ≤ P.tau / P.Vref * ((y t).v * ((Vehicle.mk' m beta LD A alpha RN P atm u f st).D ((y t).r * P.RP)
      (y t).theta (y t).phi ((y t).v * P.Vref) / m)) := by positivity
  linarith

/-- C18: above `h_thres` bank angle switches do not change the Jacobi energy. -/
theorem C18_switched_constant (name : String) (P : Planet)
    (hP : Planet.init name = .ok P) (m beta LD A alpha RN : ℝ) (atm : Atmosphere) (u : Bool) (f : ℝ → ℝ)
    (st : InitState) (hm : 0 < m) (delta : ℝ → ℝ) (y : ℝ → FState) (a b : ℝ) (S : Finset ℝ)
    (hy : SwitchedFlight (fun t s => (Vehicle.mk' m beta LD A alpha RN P atm u f st).EOM s t (delta t)) y a b S)
    (hr : ∀ t ∈ Set.Icc a b, P.hThres < P.computeH ((y t).r * P.RP)) :
    ∀ t ∈ Set.Icc a b, jacobi P.J2 P.J3 P.OMEGAbar (y t).r (y t).phi (y t).v
      = jacobi P.J2 P.J3 P.OMEGAbar (y a).r (y a).phi (y a).v := by
  obtain ⟨_, hR, _, _, _, hTr, hTS, hST, _⟩ := C01_planet_consistent name P hP
  have hT : 0 ≤ P.hThres := by linarith
  have hr0 : ∀ t ∈ Set.Icc a b, (y t).r ≠ 0 := by
    intro t ht h0
    have := hr t ht
    simp only [Planet.computeH, h0] at this
    linarith
  refine constant_off (fun s => jacobi P.J2 P.J3 P.OMEGAbar (y s).r (y s).phi (y s).v) S a b
    (jacobi_continuousOn P hy hr0) fun t ht hs => ?_
  have ht' := Set.Ioo_subset_Icc_self ht
  refine (C18_rate_any_vehicle name P hP m beta LD A alpha RN atm u f st hm (delta t) y t (hy.solves t ht hs)
    (hr0 t ht')).congr_deriv ?_
  have : (Vehicle.mk' m beta LD A alpha RN P atm u f st).planet.rho
      (Vehicle.mk' m beta LD A alpha RN P atm u f st).atm ((y t).r * P.RP) (y t).theta (y t).phi = 0 :=
    (C03_density_regimes P atm _ hT).2.1 (hr t ht')
  simp only [Vehicle.D, this]
  ring

/-! ### C87 -/

/-- The drag of a vehicle with positive drag coefficient in a shipped atmosphere is positive exactly in the atmosphere. -/
theorem shipped_drag_pos (name : String) (F : AtmFile) (hF : (name, F) ∈ shippedFiles) (P : Planet)
    (hP : Planet.init name = .ok P) (atm : Atmosphere) (hatm : LoadedCubic P F.km (fileRows F) atm)
    (m beta LD A alpha RN : ℝ) (u : Bool) (f : ℝ → ℝ) (st : InitState) (hm : 0 < m) (hb : 0 < beta) (hA : 0 < A)
    (hf : ∀ M, 0 < f M) (r theta phi v : ℝ) (hv : 0 < v) :
    (0 < (Vehicle.mk' m beta LD A alpha RN P atm u f st).D r theta phi v ↔ r - P.RP ≤ P.hThres) ∧
    ((Vehicle.mk' m beta LD A alpha RN P atm u f st).D r theta phi v = 0 ↔ P.hThres < r - P.RP) := by
  have hpos := C85_density_positive name F hF P hP atm hatm (r - P.RP)
  have hzero : P.hThres < r - P.RP → P.density atm (r - P.RP) = 0 := fun h => by
    rw [Planet.density, if_neg (fun hc => absurd hc.2 (not_le.mpr h)), if_pos h]
  have hCD : 0 < (Vehicle.mk' m beta LD A alpha RN P atm u f st).CD1 r v := by
    unfold Vehicle.CD1
    split_ifs
    · exact hf _
    · exact div_pos hm (mul_pos hb hA)
  have h4 : 0 < (Vehicle.mk' m beta LD A alpha RN P atm u f st).A := hA
  have key : r - P.RP ≤ P.hThres → 0 < (Vehicle.mk' m beta LD A alpha RN P atm u f st).D r theta phi v := by
    intro h
    have h3 : 0 < (Vehicle.mk' m beta LD A alpha RN P atm u f st).planet.rho
      (Vehicle.mk' m beta LD A alpha RN P atm u f st).atm r theta phi := hpos.mpr h
    unfold Vehicle.D
    rw [l05]
    positivity
  have key2 : P.hThres < r - P.RP → (Vehicle.mk' m beta LD A alpha RN P atm u f st).D r theta phi v = 0 := by
    intro h
    have h3 : (Vehicle.mk' m beta LD A alpha RN P atm u f st).planet.rho
      (Vehicle.mk' m beta LD A alpha RN P atm u f st).atm r theta phi = 0 := hzero h
    simp only [Vehicle.D, h3]
    ring
  refine ⟨⟨fun h => ?_, key⟩, ⟨fun h => ?_, key2⟩⟩
  · by_contra hc
    rw [key2 (not_le.mp hc)] at h
    exact lt_irrefl _ h
  · by_contra hc
    have := key (not_lt.mp hc)
    linarith

/-- C87 for every vehicle with positive drag coefficient, constant or given by a drag curve: it loses energy exactly
while it is not above the edge of the atmosphere. -/
theorem C87_energy_any_vehicle (name : String) (F : AtmFile) (hF : (name, F) ∈ shippedFiles) (P : Planet)
    (hP : Planet.init name = .ok P) (atm : Atmosphere) (hatm : LoadedCubic P F.km (fileRows F) atm)
    (m beta LD A alpha RN : ℝ) (u : Bool) (f : ℝ → ℝ) (st : InitState) (hm : 0 < m) (hb : 0 < beta) (hA : 0 < A)
    (hf : ∀ M, 0 < f M) (delta : ℝ) (y : ℝ → FState) (t : ℝ)
    (hy : SolvesAt (fun s => (Vehicle.mk' m beta LD A alpha RN P atm u f st).EOM s t delta) y t)
    (hr : (y t).r ≠ 0) (hv : 0 < (y t).v) :
    ∃ E' : ℝ, HasDerivAt (fun s => jacobi P.J2 P.J3 P.OMEGAbar (y s).r (y s).phi (y s).v) E' t ∧
      (E' < 0 ↔ (y t).r * P.RP - P.RP ≤ P.hThres) ∧ (E' = 0 ↔ P.hThres < (y t).r * P.RP - P.RP) := by
  obtain ⟨_, hR, _, _, _, _, _, _, hV, htau, _⟩ := C01_planet_consistent name P hP
  obtain ⟨h1, h2⟩ := shipped_drag_pos name F hF P hP atm hatm m beta LD A alpha RN u f st hm hb hA hf
    ((y t).r * P.RP) (y t).theta (y t).phi ((y t).v * P.Vref) (mul_pos hv hV)
  refine ⟨_, C18_rate_any_vehicle name P hP m beta LD A alpha RN atm u f st hm delta y t hy hr, ?_, ?_⟩
  · rw [← h1, neg_lt_zero]
    constructor
    · intro h
      have h3 := (pos_iff_pos_of_mul_pos h).mp (by positivity)
      have h4 := (pos_iff_pos_of_mul_pos h3).mp hv
      exact (div_pos_iff_of_pos_right hm).mp h4
    · intro h; positivity
  · rw [← h2, neg_eq_zero]
    constructor
    · intro h
      have h3 := (mul_eq_zero.mp h).resolve_left (by positivity)
      have h4 := (mul_eq_zero.mp h3).resolve_left hv.ne'
      exact (div_eq_zero_iff.mp h4).resolve_right hm.ne'
    · intro h; rw [h]; ring

/-- C87 for flights with bank angle switches, for every vehicle with positive drag coefficient: over every time span in
which the vehicle stays in the atmosphere its energy strictly decreases. -/
theorem C87_switched_strictly_decreases (name : String) (F : AtmFile) (hF : (name, F) ∈ shippedFiles) (P : Planet)
    (hP : Planet.init name = .ok P) (atm : Atmosphere) (hatm : LoadedCubic P F.km (fileRows F) atm)
    (m beta LD A alpha RN : ℝ) (u : Bool) (f : ℝ → ℝ) (st : InitState) (hm : 0 < m) (hb : 0 < beta) (hA : 0 < A)
    (hf : ∀ M, 0 < f M) (delta : ℝ → ℝ) (y : ℝ → FState) (a b : ℝ) (S : Finset ℝ)
    (hy : SwitchedFlight (fun t s => (Vehicle.mk' m beta LD A alpha RN P atm u f st).EOM s t (delta t)) y a b S)
    (hr : ∀ t ∈ Set.Icc a b, (y t).r ≠ 0) (hv : ∀ t ∈ Set.Icc a b, 0 < (y t).v)
    (hin : ∀ t ∈ Set.Icc a b, (y t).r * P.RP - P.RP ≤ P.hThres) :
    StrictAntiOn (fun s => jacobi P.J2 P.J3 P.OMEGAbar (y s).r (y s).phi (y s).v) (Set.Icc a b) := by
  refine strictAntiOn_off _ S a b (jacobi_continuousOn P hy hr) fun t ht hs => ?_
  have ht' := Set.Ioo_subset_Icc_self ht
  obtain ⟨E', h1, h2, -⟩ := C87_energy_any_vehicle name F hF P hP atm hatm m beta LD A alpha RN u f st hm hb hA hf
    (delta t) y t (hy.solves t ht hs) (hr t ht') (hv t ht')
  exact ⟨E', h2.mpr (hin t ht'), h1⟩

/-! ### C61 and C97 -/

/-- C61 for flights with switches: with full lift up or down at all times (reversals of the lift included) a flight that
starts on the equator due east or due west, on a body with zero `J3`, stays on the equator and keeps its heading. -/
theorem C61_switched_stays_equatorial (V : Vehicle) (hJ : V.planet.J3 = 0) (delta : ℝ → ℝ) (y : ℝ → FState) (a b : ℝ)
    (S : Finset ℝ) (hy : SwitchedFlight (fun t s => V.EOM s t (delta t)) y a b S)
    (hd : ∀ t ∈ Set.Icc a b, sin (delta t) = 0)
    (hr : ∀ t ∈ Set.Icc a b, (y t).r ≠ 0) (hv : ∀ t ∈ Set.Icc a b, (y t).v ≠ 0)
    (hp : ∀ t ∈ Set.Icc a b, cos (y t).phi ≠ 0) (hg : ∀ t ∈ Set.Icc a b, cos (y t).gamma + 1e-2 ≠ 0)
    (h0 : (y a).phi = 0) (h1 : sin (y a).psi = 0) :
    ∀ t ∈ Set.Icc a b, (y t).phi = 0 ∧ (y t).psi = (y a).psi := by
  have cr := hy.r
  have cv := hy.v
  have cp := hy.phi
  have cs := hy.psi
  have cg := hy.gamma
  have cA : ContinuousOn (fun t => headingA V.planet (y t)) (Set.Icc a b) := by
    unfold headingA
    have e1 : ∀ t ∈ Set.Icc a b, (y t).v * (cos (y t).gamma + 1e-2) ≠ 0 := fun t ht => mul_ne_zero (hv t ht) (hg t ht)
    have e2 : ∀ t ∈ Set.Icc a b, (y t).r ^ 4 ≠ 0 := fun t ht => pow_ne_zero _ (hr t ht)
    fun_prop (disch := assumption)
  have cB : ContinuousOn (fun t => headingB V.planet (y t)) (Set.Icc a b) := by
    unfold headingB
    fun_prop (disch := assumption)
  have cC : ContinuousOn (fun t => (y t).v * cos (y t).gamma / (y t).r) (Set.Icc a b) := by
    fun_prop (disch := assumption)
  obtain ⟨KA, hKA⟩ := isCompact_Icc.exists_bound_of_continuousOn cA
  obtain ⟨KB, hKB⟩ := isCompact_Icc.exists_bound_of_continuousOn cB
  obtain ⟨KC, hKC⟩ := isCompact_Icc.exists_bound_of_continuousOn cC
  have key := zero_off (fun t => ((y t).phi, (y t).psi - (y a).psi))
    (fun t => ((V.EOM (y t) t (delta t)).phi, (V.EOM (y t) t (delta t)).psi)) (KA + KB + KC) S a b
    (cp.prodMk (cs.sub continuousOn_const)) (by simp [h0]) ?_
  · intro t ht
    have := key t ht
    simp only [Prod.mk_eq_zero] at this
    exact ⟨this.1, by linarith [this.2]⟩
  · intro t ht hS
    have ht' := Set.Ioo_subset_Icc_self ht
    have hs := hy.solves t ht hS
    refine ⟨hs.phi.prodMk (hs.psi.sub_const _), ?_⟩
    have hA := hKA t ht'; have hB := hKB t ht'; have hC := hKC t ht'
    rw [Real.norm_eq_abs] at hA hB hC
    have hsin : |sin (y t).psi| ≤ |(y t).psi - (y a).psi| := by
      have e : sin (y t).psi = cos (y a).psi * sin ((y t).psi - (y a).psi) := by
        have := sin_add (y a).psi ((y t).psi - (y a).psi)
        rw [add_sub_cancel, h1, zero_mul, zero_add] at this
        exact this
      rw [e, abs_mul]
      calc _ ≤ 1 * |sin ((y t).psi - (y a).psi)| :=
            mul_le_mul_of_nonneg_right (abs_cos_le_one _) (abs_nonneg _)
        _ ≤ _ := by rw [one_mul]; exact abs_sin_le_abs
    have hn1 : |(y t).phi| ≤ ‖((y t).phi, (y t).psi - (y a).psi)‖ := by
      rw [Prod.norm_def, Real.norm_eq_abs]; exact le_max_left _ _
    have hn2 : |(y t).psi - (y a).psi| ≤ ‖((y t).phi, (y t).psi - (y a).psi)‖ := by
      rw [Prod.norm_def, Real.norm_eq_abs, Real.norm_eq_abs]; exact le_max_right _ _
    set M := ‖((y t).phi, (y t).psi - (y a).psi)‖ with hM
    have hM0 : 0 ≤ M := norm_nonneg _
    have b1 : |sin (y t).phi| ≤ M := (abs_sin_le_abs).trans hn1
    have b2 : |sin (y t).psi| ≤ M := hsin.trans hn2
    have hA0 := (abs_nonneg _).trans hA
    have hB0 := (abs_nonneg _).trans hB
    have hC0 := (abs_nonneg _).trans hC
    rw [Prod.norm_def, max_le_iff]
    constructor
    · simp only [Real.norm_eq_abs]
      have e : (V.EOM (y t) t (delta t)).phi = (y t).v * cos (y t).gamma / (y t).r * sin (y t).psi := by
        simp only [Vehicle.EOM]; ring
      rw [e, abs_mul]
      have := mul_le_mul hC b2 (abs_nonneg _) hC0
      nlinarith [mul_nonneg hA0 hM0, mul_nonneg hB0 hM0]
    · simp only [Real.norm_eq_abs]
      rw [heading_rate V (y t) t (delta t) hJ (hd t ht')]
      have t1 := mul_le_mul hA b1 (abs_nonneg _) hA0
      have t2 := mul_le_mul hB b2 (abs_nonneg _) hB0
      rw [← abs_mul] at t1 t2
      have := abs_add_le (headingA V.planet (y t) * sin (y t).phi) (headingB V.planet (y t) * sin (y t).psi)
      nlinarith [mul_nonneg hC0 hM0]

theorem momentum_continuousOn (Om : ℝ) {F : ℝ → FState → FState} {y : ℝ → FState} {a b : ℝ} {S : Finset ℝ}
    (hy : SwitchedFlight F y a b S) : ContinuousOn (fun s => stateMomentum Om (y s)) (Set.Icc a b) := by
  have c1 := hy.r; have c2 := hy.phi; have c3 := hy.v; have c4 := hy.psi; have c5 := hy.gamma; have c6 := hy.theta
  simp only [stateMomentum_eq]
  fun_prop

/-- C97 for flights with switches: above the atmosphere a flight that starts on the equator due east or due west, on a
body with zero `J3`, keeps its angular momentum about the axis of the planet. -/
theorem C97_switched_conserves (name : String) (P : Planet)
    (hP : Planet.init name = .ok P) (hJ : P.J3 = 0) (m beta LD A alpha RN : ℝ) (atm : Atmosphere) (f : ℝ → ℝ)
    (st : InitState) (hm : 0 < m) (hb : 0 < beta) (hA : 0 < A) (delta : ℝ → ℝ) (y : ℝ → FState) (a b : ℝ) (S : Finset ℝ)
    (hy : SwitchedFlight (fun t s => (Vehicle.mk' m beta LD A alpha RN P atm false f st).EOM s t (delta t)) y a b S)
    (hd : ∀ t ∈ Set.Icc a b, sin (delta t) = 0)
    (hr : ∀ t ∈ Set.Icc a b, P.hThres < P.computeH ((y t).r * P.RP))
    (hp : ∀ t ∈ Set.Icc a b, cos (y t).phi ≠ 0) (hv : ∀ t ∈ Set.Icc a b, (y t).v ≠ 0)
    (hg : ∀ t ∈ Set.Icc a b, cos (y t).gamma + 1e-2 ≠ 0)
    (h0 : (y a).phi = 0) (h1 : sin (y a).psi = 0) :
    ∀ t ∈ Set.Icc a b, stateMomentum P.OMEGAbar (y t) = stateMomentum P.OMEGAbar (y a) := by
  obtain ⟨_, hR, _, _, _, hTr, hTS, hST, _⟩ := C01_planet_consistent name P hP
  have hT : 0 ≤ P.hThres := by linarith
  have hr0 : ∀ t ∈ Set.Icc a b, (y t).r ≠ 0 := by
    intro t ht h0
    have := hr t ht
    simp only [Planet.computeH, h0] at this
    linarith
  have heq := C61_switched_stays_equatorial (Vehicle.mk' m beta LD A alpha RN P atm false f st) hJ delta y a b S hy hd
    hr0 hv hp hg h0 h1
  refine constant_off (fun s => stateMomentum P.OMEGAbar (y s)) S a b (momentum_continuousOn _ hy) fun t ht hS => ?_
  have ht' := Set.Ioo_subset_Icc_self ht
  refine (C97_east_west name P hP m beta LD A alpha RN atm f st hm hb hA (delta t) y t (hy.solves t ht hS) (hr0 t ht')
    (hp t ht') (hv t ht') (hg t ht') (by rw [(heq t ht').2]; exact h1)).congr_deriv ?_
  have h0 : P.rho atm ((y t).r * P.RP) (y t).theta (y t).phi = 0 :=
    (C03_density_regimes P atm _ hT).2.1 (hr t ht')
  rw [axialTorque_aero, h0]
  ring

/-! ### C88 -/

theorem flight_continuousOn {F : ℝ → FState → FState} {y : ℝ → FState} {a b : ℝ} {S : Finset ℝ}
    (hy : SwitchedFlight F y a b S) : ContinuousOn (fun t => (y t).toR7) (Set.Icc a b) := by
  have c1 := hy.r; have c2 := hy.phi; have c3 := hy.v; have c4 := hy.psi; have c5 := hy.gamma; have c6 := hy.theta
  have c7 := hy.drange
  unfold FState.toR7
  fun_prop

/-- C88 for flights with switches: for a bank angle history that is constant for some time after every instant, two
flights of the same vehicle that start in the same state agree as long as the first one stays where the equations are
smooth, whatever the times at which they fail to be differentiable. -/
theorem C88_switched_unique (V : Vehicle) (delta : ℝ → ℝ) (y y' : ℝ → FState) (a b : ℝ) (S S' : Finset ℝ)
    (hpc : ∀ t ∈ Set.Ico a b, ∃ d, ∀ᶠ s in nhdsWithin t (Set.Ioi t), delta s = d)
    (hy : SwitchedFlight (fun t s => V.EOM s t (delta t)) y a b S)
    (hy' : SwitchedFlight (fun t s => V.EOM s t (delta t)) y' a b S') (h0 : y a = y' a)
    (hcd : ∀ t ∈ Set.Ico a b, V.SmoothDrag (y t))
    (hr : ∀ t ∈ Set.Ico a b, (y t).r ≠ 0) (hv : ∀ t ∈ Set.Ico a b, (y t).v ≠ 0)
    (hphi : ∀ t ∈ Set.Ico a b, cos (y t).phi ≠ 0) (hg : ∀ t ∈ Set.Ico a b, cos (y t).gamma ≠ -0.01)
    (hrho : ∀ t ∈ Set.Ico a b,
      ContDiffAt ℝ 1 (V.planet.density V.atm) ((y t).r * V.planet.RP - V.planet.RP)) :
    ∀ t ∈ Set.Icc a b, y t = y' t := by
  have c1 := flight_continuousOn hy
  have c2 := flight_continuousOn hy'
  set f : ℝ → R7 := fun t => (y t).toR7 - (y' t).toR7 with hf
  have cf : ContinuousOn f (Set.Icc a b) := c1.sub c2
  have hclosed : IsClosed ({t | f t = 0} ∩ Set.Icc a b) := by
    rw [Set.inter_comm]
    exact cf.preimage_isClosed_of_isClosed isClosed_Icc isClosed_singleton
  have ha : a ∈ {t | f t = 0} := by simp [hf, h0]
  have hsub := hclosed.Icc_subset_of_forall_mem_nhdsWithin ha ?_
  · intro t ht
    have h1 : f t = 0 := hsub ht
    have h2 : (y t).toR7 = (y' t).toR7 := sub_eq_zero.mp h1
    simpa using congrArg FState.ofR7 h2
  · rintro t ⟨hft, ht⟩
    have ht' := Set.Ico_subset_Icc_self ht
    have hft' : (y t).toR7 = (y' t).toR7 := sub_eq_zero.mp hft
    obtain ⟨d, hd⟩ := hpc t ht
    obtain ⟨K, U, hU, hl⟩ := (field_contDiffAt V d (y t) (hcd t ht) (hr t ht) (hv t ht) (hphi t ht)
      (fun h => hg t ht (by norm_num at h ⊢; linarith)) (hrho t ht)).exists_lipschitzOnWith
    have hle : nhdsWithin t (Set.Ioi t) ≤ nhdsWithin t (Set.Icc a b) := by
      refine nhdsWithin_le_of_mem ?_
      filter_upwards [Ioc_mem_nhdsGT ht.2] with s hs
      exact ⟨ht.1.trans hs.1.le, hs.2⟩
    have n1 : ∀ᶠ s in nhdsWithin t (Set.Ioi t), (y s).toR7 ∈ U := hle ((c1 t ht') hU)
    have n2 : ∀ᶠ s in nhdsWithin t (Set.Ioi t), (y' s).toR7 ∈ U := hle ((c2 t ht') (by simp only [← hft']; exact hU))
    have n3 : ∀ᶠ s in nhdsWithin t (Set.Ioi t), s ≤ b := by
      filter_upwards [Ioc_mem_nhdsGT ht.2] with s hs using hs.2
    obtain ⟨u, hu, hall⟩ := (mem_nhdsGT_iff_exists_Ioc_subset).mp (hd.and (n1.and (n2.and n3)))
    have hub : u ≤ b := (hall ⟨hu, le_rfl⟩).2.2.2
    have hIcc : Set.Icc t u ⊆ Set.Icc a b := Set.Icc_subset_Icc ht.1 hub
    have hz := zero_off f (fun s => V.field d (y s).toR7 - V.field d (y' s).toR7) K (S ∪ S') t u (cf.mono hIcc) hft ?_
    · refine (mem_nhdsGT_iff_exists_Ioc_subset).mpr ⟨u, hu, fun s hs => hz s ⟨hs.1.le, hs.2⟩⟩
    · intro s hs hS
      rw [Finset.mem_union, not_or] at hS
      obtain ⟨e1, e2, e3, -⟩ := hall ⟨hs.1, hs.2.le⟩
      have hsab : s ∈ Set.Ioo a b := ⟨lt_of_le_of_lt ht.1 hs.1, lt_of_lt_of_le hs.2 hub⟩
      have s1 := (solvesAt_iff _ _ _).mp (hy.solves s hsab hS.1)
      have s2 := (solvesAt_iff _ _ _).mp (hy'.solves s hsab hS.2)
      rw [show delta s = d from e1] at s1 s2
      exact ⟨s1.sub s2, (lipschitzOnWith_iff_norm_sub_le.mp hl) e2 e3⟩

/-- Two flights that meet at the time `τ` make a flight with a switch at `τ`. -/
theorem concat_flights {F₁ F₂ : ℝ → FState → FState} {y₁ y₂ : ℝ → FState} {a τ b : ℝ}
    (s1 : ∀ t ∈ Set.Icc a τ, SolvesAt (F₁ t) y₁ t) (s2 : ∀ t ∈ Set.Icc τ b, SolvesAt (F₂ t) y₂ t) (e : y₁ τ = y₂ τ) :
    SwitchedFlight (fun t => if t < τ then F₁ t else F₂ t) (fun t => if t ≤ τ then y₁ t else y₂ t) a b {τ} := by
  have key : ∀ g : FState → ℝ, (∀ t ∈ Set.Icc a τ, ContinuousAt (fun s => g (y₁ s)) t) →
      (∀ t ∈ Set.Icc τ b, ContinuousAt (fun s => g (y₂ s)) t) →
      ContinuousOn (fun t => g (if t ≤ τ then y₁ t else y₂ t)) (Set.Icc a b) := by
    intro g h1 h2
    have e' : (fun t => g (if t ≤ τ then y₁ t else y₂ t)) = fun t => if t ≤ τ then g (y₁ t) else g (y₂ t) := by
      funext t; split_ifs <;> rfl
    rw [e']
    apply ContinuousOn.if
    · rintro t ⟨ht, hb⟩
      have : t = τ := by
        have := frontier_Iic (a := τ) ▸ hb
        simpa using this
      rw [this, e]
    · intro t ht
      have : t ≤ τ := closure_minimal (s := {a : ℝ | a ≤ τ}) (t := Set.Iic τ) (fun _ h => h) isClosed_Iic ht.2
      exact (h1 t ⟨ht.1.1, this⟩).continuousWithinAt
    · intro t ht
      have : τ ≤ t :=
        closure_minimal (s := {a : ℝ | ¬ a ≤ τ}) (t := Set.Ici τ) (fun _ h => (not_le.mp h).le) isClosed_Ici ht.2
      exact (h2 t ⟨this, ht.1.2⟩).continuousWithinAt
  refine ⟨?_, ?_, ?_, ?_, ?_, ?_, ?_, ?_⟩
  · exact key (·.r) (fun t ht => (s1 t ht).r.continuousAt) (fun t ht => (s2 t ht).r.continuousAt)
  · exact key (·.theta) (fun t ht => (s1 t ht).theta.continuousAt) (fun t ht => (s2 t ht).theta.continuousAt)
  · exact key (·.phi) (fun t ht => (s1 t ht).phi.continuousAt) (fun t ht => (s2 t ht).phi.continuousAt)
  · exact key (·.v) (fun t ht => (s1 t ht).v.continuousAt) (fun t ht => (s2 t ht).v.continuousAt)
  · exact key (·.psi) (fun t ht => (s1 t ht).psi.continuousAt) (fun t ht => (s2 t ht).psi.continuousAt)
  · exact key (·.gamma) (fun t ht => (s1 t ht).gamma.continuousAt) (fun t ht => (s2 t ht).gamma.continuousAt)
  · exact key (·.drange) (fun t ht => (s1 t ht).drange.continuousAt) (fun t ht => (s2 t ht).drange.continuousAt)
  · intro t ht hS
    have hne : t ≠ τ := by simpa using hS
    rcases lt_or_gt_of_ne hne with h | h
    · simp only [h, if_true]
      rw [solvesAt_iff]
      have h1 := (solvesAt_iff _ _ _).mp (s1 t ⟨ht.1.le, h.le⟩)
      simp only [h.le, if_true]
      refine h1.congr_of_eventuallyEq ?_
      filter_upwards [Iio_mem_nhds h] with s hs
      rw [if_pos (le_of_lt hs)]
    · simp only [not_lt.mpr h.le, if_false]
      rw [solvesAt_iff]
      have h1 := (solvesAt_iff _ _ _).mp (s2 t ⟨h.le, ht.2.le⟩)
      simp only [not_le.mpr h, if_false]
      refine h1.congr_of_eventuallyEq ?_
      filter_upwards [Ioi_mem_nhds h] with s hs
      rw [if_neg (not_le.mpr hs)]

end AMAT.Props
