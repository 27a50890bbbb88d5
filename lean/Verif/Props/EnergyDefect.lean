import Verif.Props.GuidedFlightCase
import Verif.Props.EnergyCap

/-
C122: a solver that satisfies the equations of motion up to a defect changes the energy of a flight at most in proportion to
the defect and the elapsed time.
-/

noncomputable section

open Real

namespace AMAT.Spec

/-- Energy (in units of the planet) that a unit defect of the solver can add per unit of time, for flights between the surface
and `B` planet radii with speeds up to `vm`. -/
def energyGain (P : Planet) (B vm : ℝ) : ℝ := 1 + 6 * |P.J2| + 25 * |P.J3| + 2 * P.OMEGAbar ^ 2 * B ^ 2 + vm

/-- Between the surface and `B` planet radii, with a speed between 0 and `vm`. -/
def Slow (B vm : ℝ) (s : FState) : Prop := 1 ≤ s.r ∧ s.r ≤ B ∧ 0 ≤ s.v ∧ s.v ≤ vm

end AMAT.Spec

namespace AMAT.Props

open Real AMAT AMAT.Spec AMAT.Data AMAT.Lits AMAT.Piecewise

/-! ### The energy along an arbitrary curve -/

/-- Derivative of the Jacobi energy with respect to the distance. -/
def jacobiR (J2 J3 Omega r phi : ℝ) : ℝ :=
  1 / r ^ 2 - 3 * J2 / r ^ 4 * ((3 * sin phi ^ 2 - 1) / 2) - 4 * J3 / r ^ 5 * ((5 * sin phi ^ 3 - 3 * sin phi) / 2)
    - Omega ^ 2 * r * cos phi ^ 2

/-- Derivative of the Jacobi energy with respect to the latitude. -/
def jacobiPhi (J2 J3 Omega r phi : ℝ) : ℝ :=
  J2 / r ^ 3 * (3 * sin phi * cos phi) + J3 / r ^ 4 * ((15 * sin phi ^ 2 - 3) * cos phi / 2)
    + Omega ^ 2 * r ^ 2 * cos phi * sin phi

theorem jacobi_curve (P : Planet) (y : ℝ → FState) (w : FState) (t : ℝ) (hy : SolvesAt (fun _ => w) y t) (hr : (y t).r ≠ 0) :
    HasDerivAt (fun s => jacobi P.J2 P.J3 P.OMEGAbar (y s).r (y s).phi (y s).v)
      (jacobiR P.J2 P.J3 P.OMEGAbar (y t).r (y t).phi * w.r + jacobiPhi P.J2 P.J3 P.OMEGAbar (y t).r (y t).phi * w.phi
        + (y t).v * w.v) t := by
  have hR := hy.r; have hP := hy.phi; have hV := hy.v
  have hi : HasDerivAt (fun s => ((y s).r)⁻¹) (-w.r / (y t).r ^ 2) t := hR.inv hr
  have hs := hP.sin
  have h3 := ((hi.pow 3).const_mul P.J2).mul (((((hs.pow 2).const_mul 3).sub_const 1).div_const 2))
  have h4 := ((hi.pow 4).const_mul P.J3).mul (((((hs.pow 3).const_mul 5).sub (hs.const_mul 3)).div_const 2))
  have hU := (hi.sub h3).sub h4
  have hK := (hV.pow 2).div_const 2
  have hC := ((((hR.mul hP.cos).pow 2).const_mul (P.OMEGAbar ^ 2)).div_const 2)
  have h := (hK.sub hU).sub hC
  refine (h.congr_deriv ?_).congr_of_eventuallyEq (Filter.Eventually.of_forall fun s => ?_)
  · simp only [jacobiR, jacobiPhi, Pi.mul_apply, Pi.pow_apply, Pi.sub_apply]
    norm_num
    field_simp
    ring
  · simp only [jacobi, potential, Pi.sub_apply, Pi.pow_apply, Pi.mul_apply]
    by_cases h0 : (y s).r = 0
    · simp [h0]
    · field_simp

/-- The straight line through `s` with the rates `w`. -/
def lineThrough (s w : FState) (t₀ t : ℝ) : FState :=
  ⟨s.r + w.r * (t - t₀), s.theta + w.theta * (t - t₀), s.phi + w.phi * (t - t₀), s.v + w.v * (t - t₀),
    s.psi + w.psi * (t - t₀), s.gamma + w.gamma * (t - t₀), s.drange + w.drange * (t - t₀)⟩

theorem lineThrough_solves (s w : FState) (t₀ t : ℝ) : SolvesAt (fun _ => w) (lineThrough s w t₀) t := by
  have k : ∀ a b : ℝ, HasDerivAt (fun t => a + b * (t - t₀)) b t := fun a b => by
    simpa using (((hasDerivAt_id t).sub_const t₀).const_mul b).const_add a
  exact ⟨k _ _, k _ _, k _ _, k _ _, k _ _, k _ _, k _ _⟩

theorem lineThrough_self (s w : FState) (t : ℝ) : lineThrough s w t t = s := by
  simp [lineThrough]

/-- The rates prescribed by the equations of motion change the energy by the work of the aerodynamic force. -/
theorem jacobi_field (V : Vehicle) (delta t : ℝ) (s : FState) (hr : s.r ≠ 0) :
    jacobiR V.planet.J2 V.planet.J3 V.planet.OMEGAbar s.r s.phi * (V.EOM s t delta).r
      + jacobiPhi V.planet.J2 V.planet.J3 V.planet.OMEGAbar s.r s.phi * (V.EOM s t delta).phi + s.v * (V.EOM s t delta).v
      = s.v * V.a_sbar s.r s.theta s.phi s.v delta := by
  have h0 := lineThrough_self s (V.EOM s t delta) t
  have hl := lineThrough_solves s (V.EOM s t delta) t t
  have h1 := jacobi_curve V.planet _ _ t hl (by rw [h0]; exact hr)
  have h2 := C18_jacobi_rate V delta (lineThrough s (V.EOM s t delta) t) t
    (by
      have e : V.EOM (lineThrough s (V.EOM s t delta) t t) t delta = V.EOM s t delta := by rw [h0]
      exact ⟨by rw [e]; exact hl.r, by rw [e]; exact hl.theta, by rw [e]; exact hl.phi, by rw [e]; exact hl.v,
        by rw [e]; exact hl.psi, by rw [e]; exact hl.gamma, by rw [e]; exact hl.drange⟩)
    (by rw [h0]; exact hr)
  have := h1.unique h2
  rw [h0] at this
  exact this

theorem jacobiR_bound (P : Planet) {B r : ℝ} (hr : 1 ≤ r) (hB : r ≤ B) (phi : ℝ) :
    |jacobiR P.J2 P.J3 P.OMEGAbar r phi| ≤ 1 + 3 * |P.J2| + 16 * |P.J3| + P.OMEGAbar ^ 2 * B ^ 2 := by
  have r0 : 0 < r := by linarith
  have s1 := abs_sin_le_one phi
  have inv : ∀ n : ℕ, 1 / r ^ n ≤ 1 := fun n => by
    rw [div_le_one (by positivity)]; exact one_le_pow₀ hr
  have inv0 : ∀ n : ℕ, 0 ≤ 1 / r ^ n := fun n => by positivity
  have hs2 : sin phi ^ 2 ≤ 1 := by nlinarith [sin_sq_add_cos_sq phi, sq_nonneg (cos phi)]
  have hc2 : cos phi ^ 2 ≤ 1 := by nlinarith [sin_sq_add_cos_sq phi, sq_nonneg (sin phi)]
  have p2 : |(3 * sin phi ^ 2 - 1) / 2| ≤ 1 := by
    rw [abs_le]; constructor <;> nlinarith [sq_nonneg (sin phi)]
  have p3 : |(5 * sin phi ^ 3 - 3 * sin phi) / 2| ≤ 4 := by
    have e : (5 * sin phi ^ 3 - 3 * sin phi) / 2 = sin phi * ((5 * sin phi ^ 2 - 3) / 2) := by ring
    rw [e, abs_mul]
    have : |(5 * sin phi ^ 2 - 3) / 2| ≤ 4 := by rw [abs_le]; constructor <;> nlinarith [sq_nonneg (sin phi)]
    calc _ ≤ 1 * 4 := mul_le_mul s1 this (abs_nonneg _) zero_le_one
      _ = 4 := one_mul _
  have t1 : |1 / r ^ 2| ≤ 1 := by rw [abs_of_nonneg (inv0 2)]; exact inv 2
  have t2 : |3 * P.J2 / r ^ 4 * ((3 * sin phi ^ 2 - 1) / 2)| ≤ 3 * |P.J2| := by
    have e : 3 * P.J2 / r ^ 4 = 3 * P.J2 * (1 / r ^ 4) := by ring
    rw [e, abs_mul, abs_mul, abs_mul, abs_of_nonneg (inv0 4), abs_of_pos (by norm_num : (0:ℝ) < 3)]
    calc 3 * |P.J2| * (1 / r ^ 4) * |(3 * sin phi ^ 2 - 1) / 2| ≤ 3 * |P.J2| * 1 * 1 := by
          gcongr
          exact inv 4
      _ = _ := by ring
  have t3 : |4 * P.J3 / r ^ 5 * ((5 * sin phi ^ 3 - 3 * sin phi) / 2)| ≤ 16 * |P.J3| := by
    have e : 4 * P.J3 / r ^ 5 = 4 * P.J3 * (1 / r ^ 5) := by ring
    rw [e, abs_mul, abs_mul, abs_mul, abs_of_nonneg (inv0 5), abs_of_pos (by norm_num : (0:ℝ) < 4)]
    calc 4 * |P.J3| * (1 / r ^ 5) * |(5 * sin phi ^ 3 - 3 * sin phi) / 2| ≤ 4 * |P.J3| * 1 * 4 := by
          gcongr
          exact inv 5
      _ = _ := by ring
  have t4 : |P.OMEGAbar ^ 2 * r * cos phi ^ 2| ≤ P.OMEGAbar ^ 2 * B ^ 2 := by
    rw [abs_of_nonneg (by positivity)]
    have : r * cos phi ^ 2 ≤ B ^ 2 := by
      have h1 : r * cos phi ^ 2 ≤ r := mul_le_of_le_one_right r0.le hc2
      nlinarith
    calc P.OMEGAbar ^ 2 * r * cos phi ^ 2 = P.OMEGAbar ^ 2 * (r * cos phi ^ 2) := by ring
      _ ≤ _ := by gcongr
  unfold jacobiR
  rw [abs_le] at *
  constructor <;> linarith

theorem jacobiPhi_bound (P : Planet) {B r : ℝ} (hr : 1 ≤ r) (hB : r ≤ B) (phi : ℝ) :
    |jacobiPhi P.J2 P.J3 P.OMEGAbar r phi| ≤ 3 * |P.J2| + 9 * |P.J3| + P.OMEGAbar ^ 2 * B ^ 2 := by
  have r0 : 0 < r := by linarith
  have s1 := abs_sin_le_one phi
  have c1 := abs_cos_le_one phi
  have inv : ∀ n : ℕ, 1 / r ^ n ≤ 1 := fun n => by
    rw [div_le_one (by positivity)]; exact one_le_pow₀ hr
  have inv0 : ∀ n : ℕ, 0 ≤ 1 / r ^ n := fun n => by positivity
  have hs2 : sin phi ^ 2 ≤ 1 := by nlinarith [sin_sq_add_cos_sq phi, sq_nonneg (cos phi)]
  have sc : |sin phi * cos phi| ≤ 1 := by
    rw [abs_mul]
    calc _ ≤ (1:ℝ) * 1 := mul_le_mul s1 c1 (abs_nonneg _) zero_le_one
      _ = 1 := one_mul _
  have q3 : |(15 * sin phi ^ 2 - 3) / 2| ≤ 9 := by rw [abs_le]; constructor <;> nlinarith [sq_nonneg (sin phi)]
  have t2 : |P.J2 / r ^ 3 * (3 * sin phi * cos phi)| ≤ 3 * |P.J2| := by
    have e : P.J2 / r ^ 3 * (3 * sin phi * cos phi) = 3 * P.J2 * (1 / r ^ 3) * (sin phi * cos phi) := by ring
    rw [e, abs_mul, abs_mul, abs_mul, abs_of_nonneg (inv0 3), abs_of_pos (by norm_num : (0:ℝ) < 3)]
    calc 3 * |P.J2| * (1 / r ^ 3) * |sin phi * cos phi| ≤ 3 * |P.J2| * 1 * 1 := by
          gcongr
          exact inv 3
      _ = _ := by ring
  have t3 : |P.J3 / r ^ 4 * ((15 * sin phi ^ 2 - 3) * cos phi / 2)| ≤ 9 * |P.J3| := by
    have e : P.J3 / r ^ 4 * ((15 * sin phi ^ 2 - 3) * cos phi / 2) = P.J3 * (1 / r ^ 4) * ((15 * sin phi ^ 2 - 3) / 2) * cos phi := by
      ring
    rw [e, abs_mul, abs_mul, abs_mul, abs_of_nonneg (inv0 4)]
    calc |P.J3| * (1 / r ^ 4) * |(15 * sin phi ^ 2 - 3) / 2| * |cos phi| ≤ |P.J3| * 1 * 9 * 1 := by
          gcongr
          exact inv 4
      _ = _ := by ring
  have t4 : |P.OMEGAbar ^ 2 * r ^ 2 * cos phi * sin phi| ≤ P.OMEGAbar ^ 2 * B ^ 2 := by
    have e : P.OMEGAbar ^ 2 * r ^ 2 * cos phi * sin phi = P.OMEGAbar ^ 2 * r ^ 2 * (sin phi * cos phi) := by ring
    rw [e, abs_mul, abs_of_nonneg (by positivity)]
    calc P.OMEGAbar ^ 2 * r ^ 2 * |sin phi * cos phi| ≤ P.OMEGAbar ^ 2 * B ^ 2 * 1 := by gcongr
      _ = _ := mul_one _
  unfold jacobiPhi
  rw [abs_le] at *
  constructor <;> linarith

/-- Along a curve whose rates agree with the equations of motion up to `ε`, the energy rate is that of the equations up to
`energyGain · ε`. -/
theorem jacobi_defect (V : Vehicle) (delta t ε B vm : ℝ) (y : ℝ → FState) (w : FState) (hw : SolvesAt (fun _ => w) y t)
    (hn : Near ε w (V.EOM (y t) t delta)) (hs : Slow B vm (y t)) :
    ∃ d, HasDerivAt (fun s => jacobi V.planet.J2 V.planet.J3 V.planet.OMEGAbar (y s).r (y s).phi (y s).v) d t ∧
      |d - (y t).v * V.a_sbar (y t).r (y t).theta (y t).phi (y t).v delta| ≤ energyGain V.planet B vm * ε := by
  obtain ⟨h1, h2, h3, h4⟩ := hs
  have hr : (y t).r ≠ 0 := by linarith
  have hε : 0 ≤ ε := (abs_nonneg _).trans hn.r
  refine ⟨_, jacobi_curve V.planet y w t hw hr, ?_⟩
  rw [← jacobi_field V delta t (y t) hr]
  set F := V.EOM (y t) t delta
  have a1 := jacobiR_bound V.planet h1 h2 (y t).phi
  have a2 := jacobiPhi_bound V.planet h1 h2 (y t).phi
  generalize jacobiR V.planet.J2 V.planet.J3 V.planet.OMEGAbar (y t).r (y t).phi = jr at *
  generalize jacobiPhi V.planet.J2 V.planet.J3 V.planet.OMEGAbar (y t).r (y t).phi = jp at *
  have e : jr * w.r + jp * w.phi + (y t).v * w.v - (jr * F.r + jp * F.phi + (y t).v * F.v)
      = jr * (w.r - F.r) + jp * (w.phi - F.phi) + (y t).v * (w.v - F.v) := by ring
  rw [e]
  have b1 : |jr * (w.r - F.r)| ≤ (1 + 3 * |V.planet.J2| + 16 * |V.planet.J3| + V.planet.OMEGAbar ^ 2 * B ^ 2) * ε := by
    rw [abs_mul]
    exact mul_le_mul a1 hn.r (abs_nonneg _) (by positivity)
  have b2 : |jp * (w.phi - F.phi)| ≤ (3 * |V.planet.J2| + 9 * |V.planet.J3| + V.planet.OMEGAbar ^ 2 * B ^ 2) * ε := by
    rw [abs_mul]
    exact mul_le_mul a2 hn.phi (abs_nonneg _) (by positivity)
  have b3 : |(y t).v * (w.v - F.v)| ≤ vm * ε := by
    rw [abs_mul, abs_of_nonneg h3]
    exact mul_le_mul h4 hn.v (abs_nonneg _) (h3.trans h4)
  calc _ ≤ |jr * (w.r - F.r)| + |jp * (w.phi - F.phi)| + |(y t).v * (w.v - F.v)| := abs_add_three _ _ _
    _ ≤ _ := by unfold energyGain; linarith

theorem nearFlight_jacobi_cont (P : Planet) {F : ℝ → FState → FState} {y : ℝ → FState} {a b ε : ℝ} {S : Finset ℝ}
    (hy : NearFlight F y a b S ε) (hr : ∀ t ∈ Set.Icc a b, (y t).r ≠ 0) :
    ContinuousOn (fun s => jacobi P.J2 P.J3 P.OMEGAbar (y s).r (y s).phi (y s).v) (Set.Icc a b) := by
  have c1 := hy.r; have c2 := hy.phi; have c3 := hy.v
  have e2 : ∀ t ∈ Set.Icc a b, (y t).r ^ 2 ≠ 0 := fun t ht => pow_ne_zero _ (hr t ht)
  have e3 : ∀ t ∈ Set.Icc a b, (y t).r ^ 3 ≠ 0 := fun t ht => pow_ne_zero _ (hr t ht)
  unfold jacobi potential
  fun_prop (disch := assumption)

/-- The energy of a curve with defect `ε`, reduced by `energyGain · ε` per unit of time, never increases, when drag does not
accelerate. -/
theorem nearFlight_energy (V : Vehicle) (delta : ℝ → ℝ) (y : ℝ → FState) (a b ε B vm : ℝ) (S : Finset ℝ)
    (hy : NearFlight (fun t s => V.EOM s t (delta t)) y a b S ε) (hs : ∀ t ∈ Set.Icc a b, Slow B vm (y t))
    (ha : ∀ r theta phi v d, V.a_sbar r theta phi v d ≤ 0) :
    AntitoneOn (fun t => jacobi V.planet.J2 V.planet.J3 V.planet.OMEGAbar (y t).r (y t).phi (y t).v
      - energyGain V.planet B vm * ε * t) (Set.Icc a b) := by
  have hr : ∀ t ∈ Set.Icc a b, (y t).r ≠ 0 := fun t ht => by have := (hs t ht).1; linarith
  refine antitoneOn_off _ S a b ((nearFlight_jacobi_cont V.planet hy hr).sub (by fun_prop)) fun t ht hS => ?_
  have ht' := Set.Ioo_subset_Icc_self ht
  obtain ⟨w, h1, h2⟩ := hy.rates t ht hS
  obtain ⟨d, h3, h4⟩ := jacobi_defect V (delta t) t ε B vm y w h1 h2 (hs t ht')
  refine ⟨d - energyGain V.planet B vm * ε, ?_, ?_⟩
  · have := mul_nonpos_of_nonneg_of_nonpos (hs t ht').2.2.1 (ha (y t).r (y t).theta (y t).phi (y t).v (delta t))
    have := (abs_le.mp h4).2
    linarith
  · have := h3.sub ((hasDerivAt_id t).const_mul (energyGain V.planet B vm * ε))
    simp only [mul_one] at this
    exact this

/-- **C122**: a solver that follows the equations of motion with defect `ε`, at any bank angles, in an atmosphere of non-negative
density, never raises the energy of the flight by more than `energyGain · ε` per unit of time. -/
theorem C122_energy_rise (name : String) (P : Planet) (hP : Planet.init name = .ok P) (m beta LD A alpha RN : ℝ)
    (atm : Atmosphere) (u : Bool) (f : ℝ → ℝ) (st : InitState) (hm : 0 < m) (hb : 0 < beta) (hA : 0 < A) (hf : ∀ M, 0 ≤ f M)
    (hatm : ∀ h, 0 ≤ h → h ≤ P.hThres → 0 ≤ atm.densityInt h) (delta : ℝ → ℝ) (y : ℝ → FState) (a b ε B vm : ℝ) (S : Finset ℝ)
    (hy : NearFlight (fun t s => (Vehicle.mk' m beta LD A alpha RN P atm u f st).EOM s t (delta t)) y a b S ε)
    (hs : ∀ t ∈ Set.Icc a b, Slow B vm (y t)) (s t : ℝ) (has : a ≤ s) (hst : s ≤ t) (htb : t ≤ b) :
    jacobi P.J2 P.J3 P.OMEGAbar (y t).r (y t).phi (y t).v ≤
      jacobi P.J2 P.J3 P.OMEGAbar (y s).r (y s).phi (y s).v + energyGain P B vm * ε * (t - s) := by
  obtain ⟨_, hRP, _, hrho, _⟩ := C01_planet_consistent name P hP
  have h := nearFlight_energy _ delta y a b ε B vm S hy hs (a_sbar_nonpos name _ hP hatm
    (by simp only [Vehicle.mk']; positivity) (by simp only [Vehicle.mk']; positivity)
    (by simp only [Vehicle.mk']; positivity) hf) ⟨has, hst.trans htb⟩ ⟨has.trans hst, htb⟩ hst
  simp only at h
  change jacobi P.J2 P.J3 P.OMEGAbar (y t).r (y t).phi (y t).v - energyGain P B vm * ε * t ≤
    jacobi P.J2 P.J3 P.OMEGAbar (y s).r (y s).phi (y s).v - energyGain P B vm * ε * s at h
  linarith

/-- **C122**, above the atmosphere: there the energy changes by at most `energyGain · ε` per unit of time, in either
direction. -/
theorem C122_energy_drift_in_vacuum (name : String) (P : Planet) (hP : Planet.init name = .ok P) (m beta LD A alpha RN : ℝ)
    (atm : Atmosphere) (u : Bool) (f : ℝ → ℝ) (st : InitState) (delta : ℝ → ℝ) (y : ℝ → FState) (a b ε B vm : ℝ) (S : Finset ℝ)
    (hy : NearFlight (fun t s => (Vehicle.mk' m beta LD A alpha RN P atm u f st).EOM s t (delta t)) y a b S ε)
    (hs : ∀ t ∈ Set.Icc a b, Slow B vm (y t)) (hv : ∀ t ∈ Set.Icc a b, P.hThres < (y t).r * P.RP - P.RP)
    (s t : ℝ) (has : a ≤ s) (hst : s ≤ t) (htb : t ≤ b) :
    |jacobi P.J2 P.J3 P.OMEGAbar (y t).r (y t).phi (y t).v - jacobi P.J2 P.J3 P.OMEGAbar (y s).r (y s).phi (y s).v| ≤
      energyGain P B vm * ε * (t - s) := by
  set V := Vehicle.mk' m beta LD A alpha RN P atm u f st with hV
  have hr : ∀ t ∈ Set.Icc a b, (y t).r ≠ 0 := fun t ht => by have := (hs t ht).1; linarith
  obtain ⟨_, hRP, _, _, _, hTr, hTS, hST, _⟩ := C01_planet_consistent name P hP
  have hzero : ∀ t ∈ Set.Icc a b, V.a_sbar (y t).r (y t).theta (y t).phi (y t).v (delta t) = 0 := by
    intro t ht
    have h0 : P.rho atm ((y t).r * P.RP) (y t).theta (y t).phi = 0 :=
      (C03_density_regimes P atm _ (by linarith)).2.1 (hv t ht)
    have h1 : V.planet.rhobar V.atm (y t).r (y t).theta (y t).phi = 0 := by
      change P.rho atm ((y t).r * P.RP) (y t).theta (y t).phi / P.rho0 = 0
      rw [h0, zero_div]
    unfold Vehicle.a_sbar Vehicle.Dbar
    rw [h1, show (0.0:ℝ) = 0 by norm_num]
    simp
  have key : ∀ t ∈ Set.Ioo a b, t ∉ S → ∃ d, HasDerivAt
      (fun s => jacobi P.J2 P.J3 P.OMEGAbar (y s).r (y s).phi (y s).v) d t ∧ |d| ≤ energyGain P B vm * ε := by
    intro t ht hS
    have ht' := Set.Ioo_subset_Icc_self ht
    obtain ⟨w, h1, h2⟩ := hy.rates t ht hS
    obtain ⟨d, h3, h4⟩ := jacobi_defect V (delta t) t ε B vm y w h1 h2 (hs t ht')
    rw [hzero t ht', mul_zero, sub_zero] at h4
    exact ⟨d, h3, h4⟩
  set E : ℝ → ℝ := fun t => jacobi P.J2 P.J3 P.OMEGAbar (y t).r (y t).phi (y t).v with hE
  set k := energyGain P B vm * ε with hk
  have hc : ContinuousOn E (Set.Icc a b) := nearFlight_jacobi_cont P hy hr
  have h1 : AntitoneOn (fun t => E t - k * t) (Set.Icc a b) := by
    refine antitoneOn_off _ S a b (hc.sub (by fun_prop)) fun t ht hS => ?_
    obtain ⟨d, h3, h4⟩ := key t ht hS
    refine ⟨d - k, by linarith [(abs_le.mp h4).2], ?_⟩
    have := h3.sub ((hasDerivAt_id t).const_mul k)
    simp only [mul_one] at this
    exact this
  have h2 : AntitoneOn (fun t => -E t - k * t) (Set.Icc a b) := by
    refine antitoneOn_off _ S a b (hc.neg.sub (by fun_prop)) fun t ht hS => ?_
    obtain ⟨d, h3, h4⟩ := key t ht hS
    refine ⟨-d - k, by linarith [(abs_le.mp h4).1], ?_⟩
    have := h3.neg.sub ((hasDerivAt_id t).const_mul k)
    simp only [mul_one] at this
    exact this
  have m1 : s ∈ Set.Icc a b := ⟨has, hst.trans htb⟩
  have m2 : t ∈ Set.Icc a b := ⟨has.trans hst, htb⟩
  have e1 := h1 m1 m2 hst
  have e2 := h2 m1 m2 hst
  simp only at e1 e2
  rw [abs_le]
  constructor <;> linarith

/-! ### Guided entries -/

/-- Specification: along a recorded trajectory the energy rises by at most `c` per minute. -/
def EnergyRises (P : Planet) (c : ℝ) (H : Hist) : Prop :=
  ∀ (i j : ℕ) (t h φ v t' h' φ' v' : ℝ), i ≤ j → H.t[i]? = some t → H.h[i]? = some h → H.phi[i]? = some φ →
    H.v[i]? = some v → H.t[j]? = some t' → H.h[j]? = some h' → H.phi[j]? = some φ' → H.v[j]? = some v' →
    recordedEnergy P h' φ' v' ≤ recordedEnergy P h φ v + c * (t' - t)

theorem guidedFlight_rise (name : String) (P : Planet) (hP : Planet.init name = .ok P) {ε B vm : ℝ} {x : InitState}
    {H : Hist} {tStep deltaDeg : List ℝ} {veh : ℕ → Vehicle} {y : ℝ → FState} {T : ℝ}
    (hg : GuidedFlight (Slow B vm) ε P x H tStep deltaDeg veh y T) (hveh : ∀ k, (veh k).planet = P)
    (ha : ∀ k r theta phi v delta, (veh k).a_sbar r theta phi v delta ≤ 0) :
    EnergyRises P (energyGain P B vm * ε * 60 / P.tau) H := by
  obtain ⟨_, hRP, _, _, _, _, _, _, hVr, htau, _⟩ := C01_planet_consistent name P hP
  have hanti := guidedFlight_pieces htau hg
    (fun t => jacobi P.J2 P.J3 P.OMEGAbar (y t).r (y t).phi (y t).v - energyGain P B vm * ε * t)
    fun k a b δ S _ _ _ hin a4 => by
      have := nearFlight_energy (veh k) (fun _ => δ * π / 180) y a b ε B vm S a4 hin (ha k)
      rw [hveh k] at this
      exact this
  intro i j t h φ v t' h' φ' v' hij e0 e1 e2 e3 f0 f1 f2 f3
  obtain ⟨s, hs, s', hs', hle, g0, g1, et, et'⟩ := guidedFlight_points hRP hVr hg i j h φ v h' φ' v' hij e1 e2 e3 f1 f2 f3
  have h1 := hanti hs hs' hle
  simp only at h1
  rw [et, et']
  have k : ∀ s, (samplePt P (s, y s)).t = s * P.tau / 60 := fun s => by
    simp only [samplePt]
    rw [show (60.0:ℝ) = 60 by norm_num, mul_comm]
  rw [g0] at e0
  rw [g1] at f0
  rw [← Option.some.inj e0, ← Option.some.inj f0, k, k]
  have e : energyGain P B vm * ε * 60 / P.tau * (s' * P.tau / 60 - s * P.tau / 60) = energyGain P B vm * ε * (s' - s) := by
    field_simp
  rw [e]
  linarith

/-- **C122** for guided entries with lift: whatever the guidance commands, the recorded energy rises by at most
`energyGain · ε` per unit of time when the solver follows the flights between the surface and `B` planet radii with defect
`ε`. -/
theorem C122_guided_lift_rise (name : String) (P : Planet) (hP : Planet.init name = .ok P) (m beta LD A alpha RN : ℝ)
    (atm : Atmosphere) (u : Bool) (f : ℝ → ℝ) (st : InitState) (hm : 0 < m) (hb : 0 < beta) (hA : 0 < A) (hf : ∀ M, 0 ≤ f M)
    (hatm : ∀ h, 0 ≤ h → h ≤ P.hThres → 0 ≤ atm.densityInt h)
    (G : GuideParams) (mode : ScipyMode) (I : Integrator) (hI : SolveIvpLike I) (fuel : ℕ)
    (hdotref : Option (List (Option ℝ))) (ts dt maxTime : ℝ) (hdt : 0 < dt) (o : GuidedOut) (V : Vehicle)
    (hV : V = Vehicle.mk' m beta LD A alpha RN P atm u f st)
    (ho : Vehicle.propogateGuidedEntry G mode I fuel V hdotref ts dt maxTime = some (.ok o) ∨
      ∃ I₀, Vehicle.propogateGuidedEntry2 G mode I₀ I fuel V hdotref ts dt maxTime = some (.ok o)) (ε B vm : ℝ)
    (hfly : ∀ x, StartsIn o.fin.hist x → ∀ δ ∈ o.fin.deltaDeg,
      FollowsFlight (Slow B vm) ε (V.setInitialState x) I 1 dt δ ∧
      FollowsFlight (Slow B vm) ε (V.setInitialState x) I ts dt δ) :
    EnergyRises P (energyGain P B vm * ε * 60 / P.tau) o.fin.hist := by
  subst hV
  obtain ⟨_, hRP, _, hrho, _⟩ := C01_planet_consistent name P hP
  obtain ⟨y, T, hg⟩ := C111_lift_one_flight name G mode I hI fuel _ hP hdotref ts dt maxTime hdt _ ε o ho hfly
  refine guidedFlight_rise name P hP hg (fun _ => rfl) fun _ => ?_
  refine a_sbar_nonpos name _ hP hatm ?_ ?_ ?_ hf
  · simp only [Vehicle.mk']; positivity
  · simp only [Vehicle.mk']; positivity
  · simp only [Vehicle.mk']; positivity

/-- **C122** for drag-modulated guided entries, jettison of the drag skirt included. -/
theorem C122_guided_drag_rise (name : String) (P : Planet) (hP : Planet.init name = .ok P) (m beta LD A alpha RN : ℝ)
    (atm : Atmosphere) (u : Bool) (f : ℝ → ℝ) (st : InitState) (hm : 0 < m) (hA : 0 < A) (hf : ∀ M, 0 ≤ f M)
    (hatm : ∀ h, 0 ≤ h → h ≤ P.hThres → 0 ≤ atm.densityInt h)
    (G : GuideParams) (hb : 0 < G.beta1) (hratio : 0 < G.betaRatio) (mode : ScipyMode) (I : Integrator) (hI : SolveIvpLike I)
    (fuel : ℕ) (hdotref : Option (List (Option ℝ))) (tsE tsX dt maxTime : ℝ) (hdt : 0 < dt) (o : GuidedOut) (V : Vehicle)
    (hV : V = Vehicle.mk' m beta LD A alpha RN P atm u f st)
    (ho : Vehicle.propogateGuidedEntryD G mode I fuel V hdotref tsE tsX dt maxTime = some (.ok o) ∨
      Vehicle.propogateGuidedEntryD2 G mode I fuel V hdotref tsE tsX dt maxTime = some (.ok o)) (ε B vm : ℝ)
    (hfly : ∀ x, StartsIn o.fin.hist x → ∀ δ ∈ o.fin.deltaDeg,
      FollowsFlight (Slow B vm) ε ((V.setBeta G.beta1).setInitialState x) I 1 dt δ ∧
      FollowsFlight (Slow B vm) ε ((V.setBeta G.beta1).setInitialState x) I tsE dt δ ∧
      FollowsFlight (Slow B vm) ε ((V.setBeta (G.beta1 * G.betaRatio)).setInitialState x) I tsX dt δ) :
    EnergyRises P (energyGain P B vm * ε * 60 / P.tau) o.fin.hist := by
  subst hV
  obtain ⟨_, hRP, _, hrho, _⟩ := C01_planet_consistent name P hP
  obtain ⟨y, T, n, -, -, hg⟩ := C111_drag_one_flight name G mode I hI fuel _ hP hdotref tsE tsX dt maxTime hdt _ ε o ho hfly
  have key : ∀ b, 0 < b → ∀ r theta phi v delta,
      ((Vehicle.mk' m beta LD A alpha RN P atm u f st).setBeta b).a_sbar r theta phi v delta ≤ 0 := by
    intro b hb
    refine a_sbar_nonpos name _ hP hatm ?_ ?_ ?_ hf
    · simp only [Vehicle.mk', Vehicle.setBeta]; positivity
    · simp only [Vehicle.mk', Vehicle.setBeta]; positivity
    · simp only [Vehicle.mk', Vehicle.setBeta]; positivity
  refine guidedFlight_rise name P hP hg (fun k => ?_) fun k => ?_
  · split_ifs <;> rfl
  · split_ifs
    · exact key _ hb
    · exact key _ (mul_pos hb hratio)

/-! ### Cases -/

/-- One step of Euler's method, short enough, has any prescribed defect: from every state off the edge of the atmosphere. -/
theorem euler_step {name : String} {F : AtmFile} (hF : (name, F) ∈ shippedFiles) {P : Planet}
    (hP : Planet.init name = .ok P) {atm : Atmosphere} (hatm : LoadedCubic P F.km (fileRows F) atm)
    (m beta LD A alpha RN : ℝ) (u : Bool) (f : ℝ → ℝ) (st : InitState) (hf : u = true → ContDiff ℝ 1 f) (d : ℝ) {s : FState}
    (hs : Departure P s) (he : s.r * P.RP - P.RP ≠ P.hThres) {ε : ℝ} (hε : 0 < ε) (Q : FState → Prop)
    (hQ : ∀ᶠ x in nhds s.toR7, Q (FState.ofR7 x)) :
    ∃ b > 0, NearFlight (fun t x => (Vehicle.mk' m beta LD A alpha RN P atm u f st).EOM x t d)
        (lineThrough s ((Vehicle.mk' m beta LD A alpha RN P atm u f st).EOM s 0 d) 0) 0 b ∅ ε ∧
      ∀ t ∈ Set.Icc 0 b, Q (lineThrough s ((Vehicle.mk' m beta LD A alpha RN P atm u f st).EOM s 0 d) 0 t) := by
  set V := Vehicle.mk' m beta LD A alpha RN P atm u f st with hV
  set w := V.EOM s 0 d with hw
  have hsm := (field_smooth (shipped_smoothDrag name F hF P hP atm hatm m beta LD A alpha RN u f
      st s (fun hu => (hf hu).contDiffAt) hs.alt he) (departure_r hP hs) hs.v hs.phi hs.gamma
      ((C88_shipped_density_smooth name F hF P hP atm hatm).1 _ hs.alt.ne' he) d).continuousAt
  have hline : Continuous fun t => (lineThrough s w 0 t).toR7 := by
    unfold lineThrough FState.toR7
    fun_prop
  have h0 : (lineThrough s w 0 0).toR7 = s.toR7 := by rw [lineThrough_self]
  have ht : Filter.Tendsto (fun t => (lineThrough s w 0 t).toR7) (nhds 0) (nhds s.toR7) := by
    have := hline.tendsto 0
    rwa [h0] at this
  have h1 : ∀ᶠ t in nhds (0:ℝ), ‖V.field d (lineThrough s w 0 t).toR7 - V.field d s.toR7‖ < ε := by
    have := (hsm.tendsto.comp ht)
    have := (this.sub_const (V.field d s.toR7)).norm
    rw [sub_self, norm_zero] at this
    exact this.eventually (gt_mem_nhds hε)
  obtain ⟨η, hη, hball⟩ := Metric.eventually_nhds_iff.mp (h1.and (ht.eventually hQ))
  have inb : ∀ t ∈ Set.Icc 0 (η / 2), dist t 0 < η := fun t ht => by
    rw [Real.dist_eq, sub_zero, abs_of_nonneg ht.1]; linarith [ht.2]
  refine ⟨η / 2, by linarith, ⟨?_, ?_, ?_, ?_, ?_, ?_, ?_, fun t ht _ => ⟨w, lineThrough_solves s w 0 t, ?_⟩⟩, fun t ht => ?_⟩
  · unfold lineThrough; fun_prop
  · unfold lineThrough; fun_prop
  · unfold lineThrough; fun_prop
  · unfold lineThrough; fun_prop
  · unfold lineThrough; fun_prop
  · unfold lineThrough; fun_prop
  · unfold lineThrough; fun_prop
  · have := (hball (inb t (Set.Ioo_subset_Icc_self ht))).1
    rw [near_iff, norm_sub_rev]
    exact this.le
  · exact (hball (inb t ht)).2

/-- Case for `C122_energy_rise` and `C122_energy_drift_in_vacuum`: steps of Euler's method on Mars, 100 km and 200 km above the
surface, that have a defect of one millionth. -/
theorem C122_mars_case : ∃ (P : Planet) (atm : Atmosphere) (b b' : ℝ) (y y' : ℝ → FState), Planet.init "MARS" = .ok P ∧
    LoadedCubic P mars.km (fileRows mars) atm ∧ 0 < b ∧ 0 < b' ∧
    NearFlight (fun t x => (Vehicle.mk' 1000 100 0.2 10 0 1 P atm true demoCurve ⟨0, 0, 0, 0, 0, 0, 0, 0⟩).EOM x t 1) y 0 b ∅
      (1 / 1000000) ∧ (∀ t ∈ Set.Icc 0 b, Slow 2 2 (y t)) ∧
    (∀ s t, 0 ≤ s → s ≤ t → t ≤ b → jacobi P.J2 P.J3 P.OMEGAbar (y t).r (y t).phi (y t).v ≤
      jacobi P.J2 P.J3 P.OMEGAbar (y s).r (y s).phi (y s).v + energyGain P 2 2 * (1 / 1000000) * (t - s)) ∧
    NearFlight (fun t x => (Vehicle.mk' 1000 100 0.2 10 0 1 P atm true demoCurve ⟨0, 0, 0, 0, 0, 0, 0, 0⟩).EOM x t 1) y' 0 b' ∅
      (1 / 1000000) ∧ (∀ t ∈ Set.Icc 0 b', Slow 2 2 (y' t) ∧ P.hThres < (y' t).r * P.RP - P.RP) := by
  obtain ⟨P, hP⟩ := (C01_planet_names "MARS").1.mpr (by simp [Spec.bodies])
  have hF : ("MARS", mars) ∈ shippedFiles := by simp [shippedFiles]
  obtain ⟨atm, hatm⟩ := (C85_loads "MARS" mars hF P hP).1
  obtain ⟨_, hR, _⟩ := C01_planet_consistent "MARS" P hP
  have hRv : P.RP = 3389500 := by simp [Planet.init] at hP; subst hP; norm_num [Planet.withScales]
  have hTh : P.hThres = 120000 := by simp [Planet.init] at hP; subst hP; norm_num [Planet.withScales]
  have step : ∀ h : ℝ, 0 < h → h < 1000000 → h ≠ 120000 → ∃ b > 0, ∃ y : ℝ → FState,
      NearFlight (fun t x => (Vehicle.mk' 1000 100 0.2 10 0 1 P atm true demoCurve ⟨0, 0, 0, 0, 0, 0, 0, 0⟩).EOM x t 1) y 0 b ∅
        (1 / 1000000) ∧ ∀ t ∈ Set.Icc 0 b, Slow 2 2 (y t) ∧ (P.hThres < h → P.hThres < (y t).r * P.RP - P.RP) := by
    intro h h0 h1 h2
    set s : FState := ⟨1 + h / P.RP, 0, 0, 1, 0, 0, 0⟩ with hs
    have halt : s.r * P.RP - P.RP = h := by
      simp only [hs]; field_simp; ring
    have hd : Departure P s := by
      refine ⟨by norm_num [hs], by norm_num [hs], by norm_num [hs], by rw [halt]; exact h0, fun h3 => ?_⟩
      rw [halt, hTh] at h3
      exact absurd h3 h2
    have hr1 : 1 < s.r := by simp only [hs]; have : 0 < h / P.RP := by positivity
                             linarith
    have hr2 : s.r < 2 := by
      simp only [hs]
      have : h / P.RP < 1 := by rw [div_lt_one hR, hRv]; linarith
      linarith
    have c1 : ContinuousAt (fun x : R7 => x.1) s.toR7 := by fun_prop
    have c2 : ContinuousAt (fun x : R7 => x.2.2.2.1) s.toR7 := by fun_prop
    have c3 : ContinuousAt (fun x : R7 => x.1 * P.RP - P.RP) s.toR7 := by fun_prop
    have k1 := c1.eventually (lt_mem_nhds (show (1:ℝ) < s.toR7.1 from hr1))
    have k2 := c1.eventually (gt_mem_nhds (show s.toR7.1 < 2 from hr2))
    have k3 := c2.eventually (lt_mem_nhds (show (0:ℝ) < s.toR7.2.2.2.1 by norm_num [hs, FState.toR7]))
    have k4 := c2.eventually (gt_mem_nhds (show s.toR7.2.2.2.1 < 2 by norm_num [hs, FState.toR7]))
    have k5 : ∀ᶠ x : R7 in nhds s.toR7, P.hThres < h → P.hThres < x.1 * P.RP - P.RP := by
      by_cases hh : P.hThres < h
      · have := c3.eventually (lt_mem_nhds (show P.hThres < s.r * P.RP - P.RP by rw [halt]; exact hh))
        filter_upwards [this] with x hx _ using hx
      · exact Filter.Eventually.of_forall fun x h3 => absurd h3 hh
    obtain ⟨b, hb, hn, hq⟩ := euler_step hF hP hatm 1000 100 0.2 10 0 1 true demoCurve ⟨0, 0, 0, 0, 0, 0, 0, 0⟩
      (fun _ => demoCurve_smooth) 1 hd (by rw [halt, hTh]; exact h2) (ε := 1 / 1000000) (by norm_num)
      (fun x => Slow 2 2 x ∧ (P.hThres < h → P.hThres < x.r * P.RP - P.RP))
      (by
        filter_upwards [k1, k2, k3, k4, k5] with x a1 a2 a3 a4 a5
        exact ⟨⟨a1.le, a2.le, a3.le, a4.le⟩, a5⟩)
    exact ⟨b, hb, _, hn, hq⟩
  obtain ⟨b, hb, y, hn, hq⟩ := step 100000 (by norm_num) (by norm_num) (by norm_num)
  obtain ⟨b', hb', y', hn', hq'⟩ := step 200000 (by norm_num) (by norm_num) (by norm_num)
  refine ⟨P, atm, b, b', y, y', hP, hatm, hb, hb', hn, fun t ht => (hq t ht).1, fun s t h1 h2 h3 => ?_, hn',
    fun t ht => ⟨(hq' t ht).1, (hq' t ht).2 (by rw [hTh]; norm_num)⟩⟩
  exact C122_energy_rise "MARS" P hP 1000 100 0.2 10 0 1 atm true demoCurve _ (by norm_num) (by norm_num) (by norm_num)
    (fun M => (demoCurve_pos M).le) (shipped_nonneg hF hP hatm) (fun _ => 1) y 0 b _ 2 2 ∅ hn (fun t ht => (hq t ht).1) s t h1 h2 h3

/-- Case for `C122_guided_lift_rise`: an entry with lift on the circle, of three cycles, with a solver defect of one millionth
allowed. -/
example : ∃ (P : Planet) (V : Vehicle) (G : GuideParams) (o : GuidedOut) (vm : ℝ), Planet.init "VENUS" = .ok P ∧
    V = Vehicle.mk' 500 100 0.2 1 0 1 P ⟨fun _ => 1, fun _ => 1, fun _ => 1, fun _ => 1⟩ true (fun _ => 0) V.init ∧
    Vehicle.propogateGuidedEntry G .strict circleIntegrator 3 V none 1 0.1 600 = some (.ok o) ∧ o.fin.deltaDeg.length = 3 ∧
    (∀ x, StartsIn o.fin.hist x → ∀ δ ∈ o.fin.deltaDeg,
      FollowsFlight (Slow 2 vm) (1 / 1000000) (V.setInitialState x) circleIntegrator 1 0.1 δ) ∧
    EnergyRises P (energyGain P 2 vm * (1 / 1000000) * 60 / P.tau) o.fin.hist := by
  obtain ⟨P, hP⟩ := (C01_planet_names "VENUS").1.mpr (by simp [Spec.bodies])
  have hS : P.hSkip = 180000 := by simp [Planet.init] at hP; subst hP; rfl
  have hTh : P.hThres = 180000 := by simp [Planet.init] at hP; subst hP; rfl
  have hRv : P.RP = 6051800 := by simp [Planet.init] at hP; subst hP; norm_num [Planet.withScales]
  obtain ⟨v0, hv0, hbal⟩ := circle_speed P hP
  have hV : 0 < P.Vref := (C01_planet_consistent _ _ hP).2.2.2.2.2.2.2.2.1
  set w := v0 * P.Vref / 1000 with hw
  have hw0 : 0 < w := by positivity
  set V := circleVehicle P ⟨179.5, 0, 0, w, 0, 0, 0, 0⟩ with hVd
  let G : GuideParams := ⟨0, 75, 1, 0, 0, 20, 0, 250, 2000, 10, 50, 10⟩
  have hpc : ∀ cmd, (psuedoController G.maxRollRate cmd 0.0 1).1 = 0.0 := by
    intro cmd; unfold psuedoController; split_ifs <;> simp [G]
  obtain ⟨o, ho, hall, hdel⟩ := circle_run P hP V rfl w ⟨rfl, rfl, rfl, rfl, rfl⟩ G hw0 le_rfl
    (Vehicle.glide1 G .strict circleIntegrator) (Vehicle.exit1 G .strict circleIntegrator) (fun W => W) (fun _ => rfl) rfl rfl
    (by
      intro x hx
      obtain ⟨cmd, hc, _⟩ := C40_glide_command V G x (by norm_num [V, circleVehicle, Vehicle.mk'])
        (by norm_num [V, circleVehicle, Vehicle.mk']) (by
          obtain ⟨c1, -, c3, -⟩ := hx
          rw [c1, c3]
          simp only [V, circleVehicle, Vehicle.mk', Planet.density, hTh]; norm_num
          exact hw0.ne')
      exact ⟨_, by simp only [Vehicle.glide1, Vehicle.glideBank, hc, bind, Except.bind, pure, Except.pure, hpc]; rfl⟩)
    (hpc 0.0) (by simp only [Vehicle.glide1]; norm_num) (by simp only [Vehicle.exit1, hS]; norm_num)
  have hfly : ∀ x, StartsIn o.fin.hist x → ∀ δ ∈ o.fin.deltaDeg,
      FollowsFlight (Slow 2 v0) (1 / 1000000) (V.setInitialState x) circleIntegrator 1 0.1 δ := by
    intro x hx δ hδ
    have : δ = 0.0 := by rw [hdel] at hδ; simpa using hδ
    subst this
    refine circle_follows_at P hP v0 hv0 hbal V _ (Or.inl rfl) x (allOnCircle_starts hall hx) _ (fun s h1 h2 => ?_) _ (by norm_num)
    refine ⟨?_, ?_, by rw [h2]; exact hv0.le, h2.le⟩ <;> rw [h1, hRv] <;> norm_num
  refine ⟨P, V, G, o, v0, hP, rfl, ho, by rw [hdel]; rfl, hfly, ?_⟩
  exact C122_guided_lift_rise "VENUS" P hP 500 100 0.2 1 0 1 ⟨fun _ => 1, fun _ => 1, fun _ => 1, fun _ => 1⟩ true (fun _ => 0) _
    (by norm_num) (by norm_num) (by norm_num) (fun _ => le_rfl) (fun _ _ _ => zero_le_one) G .strict circleIntegrator
    (OdeintLike.toIvp circleIntegrator_ok) 3 none 1 0.1 600 (by norm_num) o V rfl (Or.inl ho) _ _ _
    (fun x hx δ hδ => ⟨hfly x hx δ hδ, hfly x hx δ hδ⟩)

/-- Case for `C122_guided_drag_rise`: a drag-modulated entry on the circle, with jettison. -/
example : ∃ (P : Planet) (V : Vehicle) (G : GuideParams) (o : GuidedOut) (vm : ℝ), Planet.init "VENUS" = .ok P ∧
    V = Vehicle.mk' 500 100 0.2 1 0 1 P ⟨fun _ => 1, fun _ => 1, fun _ => 1, fun _ => 1⟩ true (fun _ => 0) V.init ∧
    0 < G.beta1 ∧ 1 < G.betaRatio ∧
    Vehicle.propogateGuidedEntryD G .strict circleIntegrator 3 V none 1 1 0.1 600 = some (.ok o) ∧ o.fin.deltaDeg.length = 3 ∧
    EnergyRises P (energyGain P 2 vm * (1 / 1000000) * 60 / P.tau) o.fin.hist := by
  obtain ⟨P, hP⟩ := (C01_planet_names "VENUS").1.mpr (by simp [Spec.bodies])
  have hS : P.hSkip = 180000 := by simp [Planet.init] at hP; subst hP; rfl
  have hRv : P.RP = 6051800 := by simp [Planet.init] at hP; subst hP; norm_num [Planet.withScales]
  obtain ⟨v0, hv0, hbal⟩ := circle_speed P hP
  have hV : 0 < P.Vref := (C01_planet_consistent _ _ hP).2.2.2.2.2.2.2.2.1
  set w := v0 * P.Vref / 1000 with hw
  have hw0 : 0 < w := by positivity
  set V := circleVehicle P ⟨179.5, 0, 0, w, 0, 0, 0, 0⟩ with hVd
  let G : GuideParams := ⟨30, 75, 1, 0, 0, 20, 0, 250, 2000, 10, 50, 10⟩
  obtain ⟨o, ho, hall, hdel⟩ := circle_run P hP (V.setBeta G.beta1) rfl w ⟨rfl, rfl, rfl, rfl, rfl⟩ G hw0 le_rfl
    (Vehicle.drag1 G .strict circleIntegrator) (Vehicle.exitD1 .strict circleIntegrator)
    (fun W => W.setBeta (G.beta1 * G.betaRatio)) (fun _ => rfl) rfl rfl
    (fun x _ => ⟨none, rfl⟩) rfl (by simp only [Vehicle.drag1]; norm_num) (by left; rw [hS]; norm_num)
  have hfly : ∀ x, StartsIn o.fin.hist x → ∀ δ ∈ o.fin.deltaDeg, ∀ b,
      FollowsFlight (Slow 2 v0) (1 / 1000000) ((V.setBeta b).setInitialState x) circleIntegrator 1 0.1 δ := by
    intro x hx δ hδ b
    have : δ = 0.0 := by rw [hdel] at hδ; simpa using hδ
    subst this
    refine circle_follows_at P hP v0 hv0 hbal _ _ (Or.inr ⟨b, rfl⟩) x (allOnCircle_starts hall hx) _ (fun s h1 h2 => ?_) _
      (by norm_num)
    refine ⟨?_, ?_, by rw [h2]; exact hv0.le, h2.le⟩ <;> rw [h1, hRv] <;> norm_num
  have hb : 0 < G.beta1 := by norm_num [G]
  have hr : 1 < G.betaRatio := by norm_num [G]
  refine ⟨P, V, G, o, v0, hP, rfl, hb, hr, ho, by rw [hdel]; rfl, ?_⟩
  exact C122_guided_drag_rise "VENUS" P hP 500 100 0.2 1 0 1 ⟨fun _ => 1, fun _ => 1, fun _ => 1, fun _ => 1⟩ true (fun _ => 0) _
    (by norm_num) (by norm_num) (fun _ => le_rfl) (fun _ _ _ => zero_le_one) G hb (by linarith) .strict circleIntegrator
    (OdeintLike.toIvp circleIntegrator_ok) 3 none 1 1 0.1 600 (by norm_num) o V rfl (Or.inl ho) _ _ _
    (fun x hx δ hδ => ⟨hfly x hx δ hδ _, hfly x hx δ hδ _, hfly x hx δ hδ _⟩)

end AMAT.Props
