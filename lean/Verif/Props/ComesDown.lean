import Verif.Props.PullUp

/-
Property C144: a vehicle of suborbital energy without upward lift comes down: it cannot stay above the surface for longer
than a time that follows from its altitude, its energy and its ballistic coefficient.
-/

noncomputable section

open Real

namespace AMAT.Spec

/-- Amount by which the energy `J` falls short of the bound in `Suborbital`. -/
def energyShortfall (P : Planet) (r0 J : ℝ) : ℝ :=
  -(1 / 2) - Props.zonal P - |P.OMEGAbar| * √(r0 * (1 + Props.zonal P)) - J

/-- Bound on the rate at which drag brakes a vehicle of ballistic coefficient `beta` in air no denser than `M`: the
density times the speed of a low orbit over twice the ballistic coefficient, per unit of dimensionless time. -/
def brakingBound (P : Planet) (beta M : ℝ) : ℝ := P.RP * M * √(1 + Props.zonal P) / (2 * beta)

end AMAT.Spec

namespace AMAT.Props

open Real AMAT AMAT.Spec AMAT.Data AMAT.Spline AMAT.Lits AMAT.Piecewise

/-- C144: vertical acceleration: aerodynamic forces, centrifugal acceleration of the horizontal inertial speed, weight. -/
theorem C144_vertical_acceleration (V : Vehicle) (s : FState) (t d : ℝ) (hr : 0 < s.r) (hv : 0 < s.v) :
    (V.EOM s t d).v * sin s.gamma + s.v * (cos s.gamma * (V.EOM s t d).gamma)
      = V.a_sbar s.r s.theta s.phi s.v d * sin s.gamma + V.a_nbar s.r s.theta s.phi s.v d * cos s.gamma
        + (inertialSpeedSq V.planet.OMEGAbar s.r s.theta s.phi s.v s.psi s.gamma - (s.v * sin s.gamma) ^ 2) / s.r
        - gravityDown V.planet.J2 V.planet.J3 s.r s.phi := by
  rw [inertialSpeedSq_eq]
  simp only [Vehicle.EOM, Vehicle.gnbar, Vehicle.gsbar, grbar_eq V hr.ne', Vehicle.cfvbar, Vehicle.cfgammabar,
    Vehicle.cogammabar, l00, l10, l20, Vehicle.gthetabar]
  have h1 := sin_sq_add_cos_sq s.gamma
  generalize gravityDown V.planet.J2 V.planet.J3 s.r s.phi = g
  generalize V.gphibar s.r s.phi = gp
  generalize V.a_sbar s.r s.theta s.phi s.v d = as
  generalize V.a_nbar s.r s.theta s.phi s.v d = an
  generalize V.planet.OMEGAbar = Om
  generalize s.r = r at *; generalize s.v = v at *
  generalize sin s.phi = sp at *; generalize cos s.phi = cp at *
  generalize sin s.psi = ss at *; generalize cos s.psi = cs at *
  generalize sin s.gamma = sg at *; generalize cos s.gamma = cg at *
  have hr' := hr.ne'
  have hv' := hv.ne'
  field_simp
  have : sg ^ 2 = 1 - cg ^ 2 := by linarith
  grind

/-- A state of suborbital energy is slower than the local orbital speed by twice the shortfall of its energy. -/
theorem suborbital_margin (P : Planet) {r0 J : ℝ} (hs : Suborbital P r0 J) {r : ℝ} (hr : 1 ≤ r) (hr0 : r ≤ r0)
    (theta phi v psi gamma : ℝ) (hv : 0 < v) (hJ : jacobi P.J2 P.J3 P.OMEGAbar r phi v ≤ J) :
    inertialSpeedSq P.OMEGAbar r theta phi v psi gamma - (v * sin gamma) ^ 2
      ≤ r * gravityDown P.J2 P.J3 r phi - 2 * energyShortfall P r0 J ∧ v ≤ √(1 + zonal P) := by
  have h0 : 0 < r := by linarith
  have hz : 0 ≤ zonal P := by unfold zonal; positivity
  obtain ⟨w1, w2⟩ := weight_bounds P hr phi
  set C := r * gravityDown P.J2 P.J3 r phi with hC
  obtain ⟨s1, s2⟩ := hs
  set w := |P.OMEGAbar| * r with hw
  have hw0 : 0 ≤ w := mul_nonneg (abs_nonneg _) h0.le
  have hr3 : r ^ 3 ≤ r0 ^ 3 := pow_le_pow_left₀ h0.le hr0 3
  have hwC : w ^ 2 ≤ C := by
    refine le_trans ?_ w1
    rw [le_div_iff₀ h0, hw, mul_pow, sq_abs]
    have := mul_le_mul_of_nonneg_left hr3 (sq_nonneg P.OMEGAbar)
    calc P.OMEGAbar ^ 2 * r ^ 2 * r = P.OMEGAbar ^ 2 * r ^ 3 := by ring
      _ ≤ _ := by linarith
  have hC0 : 0 ≤ C := (sq_nonneg w).trans hwC
  have hwq : w ≤ √C := le_sqrt_of_sq_le hwC
  have hU : potential P.J2 P.J3 r phi ≤ (1 + |P.J2| + 4 * |P.J3|) / r := by
    have hpot : potential P.J2 P.J3 r phi = (potential P.J2 P.J3 r phi * r) / r := by field_simp
    rw [hpot]
    refine div_le_div_of_nonneg_right ?_ h0.le
    exact potential_scaled P.J2 P.J3 hr phi
  have hwS : w * √C ≤ |P.OMEGAbar| * √(r0 * (1 + zonal P)) := by
    rw [hw, mul_assoc]
    refine mul_le_mul_of_nonneg_left ?_ (abs_nonneg _)
    have e : r * √C = √(r ^ 2 * C) := by rw [sqrt_mul (sq_nonneg r), sqrt_sq h0.le]
    rw [e]
    refine sqrt_le_sqrt ?_
    have := mul_le_mul_of_nonneg_left w2 (sq_nonneg r)
    have e2 : r ^ 2 * ((1 + zonal P) / r) = r * (1 + zonal P) := by field_simp
    rw [e2] at this
    exact this.trans (mul_le_mul_of_nonneg_right hr0 (by linarith))
  have hlow : -(1 / 2) - zonal P ≤ C / 2 - potential P.J2 P.J3 r phi := by
    have e : (1 - zonal P) / r / 2 - (1 + |P.J2| + 4 * |P.J3|) / r
        = -((1 / 2 + zonal P / 2 + |P.J2| + 4 * |P.J3|) / r) := by ring
    have h1 : (1 / 2 + zonal P / 2 + |P.J2| + 4 * |P.J3|) / r ≤ 1 / 2 + zonal P / 2 + |P.J2| + 4 * |P.J3| :=
      div_le_self (by positivity) hr
    have h2 : zonal P / 2 + |P.J2| + 4 * |P.J3| ≤ zonal P := by
      have := abs_nonneg P.J2; have := abs_nonneg P.J3
      unfold zonal; linarith
    linarith
  have hcp : |P.OMEGAbar * r * cos phi| ≤ w := by
    rw [abs_mul, abs_mul, abs_of_pos h0, hw]
    exact mul_le_of_le_one_right hw0 (abs_cos_le_one phi)
  have hE : 0 < energyShortfall P r0 J := by unfold energyShortfall; linarith
  have hEq : J = -(1 / 2) - zonal P - |P.OMEGAbar| * √(r0 * (1 + zonal P)) - energyShortfall P r0 J := by
    unfold energyShortfall; ring
  set E := energyShortfall P r0 J with hEdef
  rw [inertialSpeedSq_eq]
  set q := P.OMEGAbar * r * cos phi with hq
  have hJe : jacobi P.J2 P.J3 P.OMEGAbar r phi v = v ^ 2 / 2 - potential P.J2 P.J3 r phi - q ^ 2 / 2 := by
    rw [hq]; unfold jacobi; ring
  have hqC : |q| * √C ≤ w * √C := mul_le_mul_of_nonneg_right hcp (sqrt_nonneg _)
  set X := √C - |q| with hX
  have hX0 : 0 ≤ X := by linarith
  have hexp : X ^ 2 = C - 2 * (|q| * √C) + q ^ 2 := by
    rw [hX, sub_sq, sq_sqrt hC0, sq_abs]; ring
  have hvX : v ^ 2 + 2 * E ≤ X ^ 2 := by linarith
  have hvX1 : v ≤ X := by
    refine le_of_sq_le_sq ?_ hX0
    linarith
  have hq0 := abs_nonneg q
  constructor
  · have hcross : 2 * v * q * cos gamma * cos psi ≤ 2 * v * |q| := by
      have : q * (cos gamma * cos psi) ≤ |q| := by
        refine (le_abs_self _).trans ?_
        rw [abs_mul q, abs_mul (cos gamma)]
        exact mul_le_of_le_one_right (abs_nonneg _)
          (mul_le_one₀ (abs_cos_le_one _) (abs_nonneg _) (abs_cos_le_one psi))
      have := mul_le_mul_of_nonneg_left this (by positivity : 0 ≤ 2 * v)
      linarith
    have hsg : 0 ≤ (v * sin gamma) ^ 2 := sq_nonneg _
    have hCX : C = (X + |q|) ^ 2 := by rw [hX, sub_add_cancel, sq_sqrt hC0]
    have : 0 ≤ (X - v) * |q| := mul_nonneg (by linarith) hq0
    rw [hCX]
    have := sq_abs q
    nlinarith
  · refine le_trans hvX1 ?_
    have : √C ≤ √(1 + zonal P) := sqrt_le_sqrt (w2.trans (div_le_self (by linarith) hr))
    linarith

/-- Comparison: a function whose rate is at most `-ε` plus a braking of at most `K`, once not positive, soon decreases its
integral by a definite amount. -/
theorem falls (r w : ℝ → ℝ) (S : Finset ℝ) {a b K ε : ℝ} (hab : a ≤ b) (hK : 0 < K) (hε : 0 < ε)
    (hrc : ContinuousOn r (Set.Icc a b)) (hwc : ContinuousOn w (Set.Icc a b))
    (hr : ∀ t ∈ Set.Ioo a b, t ∉ S → HasDerivAt r (w t) t)
    (hw : ∀ t ∈ Set.Ioo a b, t ∉ S → ∃ d ≤ -K * w t - ε, HasDerivAt w d t) (ha : w a ≤ 0) :
    b - a ≤ 1 / K + (r a - r b) * K / ε := by
  have hec : Continuous fun t => exp (K * (t - a)) := by fun_prop
  have hec' : Continuous fun t => exp (-(K * (t - a))) := by fun_prop
  have hE : ∀ t, HasDerivAt (fun t => exp (K * (t - a))) (exp (K * (t - a)) * K) t := by
    intro t
    have := ((hasDerivAt_id t).sub_const a).const_mul K
    simpa using this.exp
  have hE' : ∀ t, HasDerivAt (fun t => exp (-(K * (t - a)))) (exp (-(K * (t - a))) * -K) t := by
    intro t
    have := (((hasDerivAt_id t).sub_const a).const_mul K).neg
    simpa using this.exp
  have h1 : AntitoneOn (fun t => (w t + ε / K) * exp (K * (t - a))) (Set.Icc a b) := by
    refine antitoneOn_off _ S a b ((hwc.add continuousOn_const).mul hec.continuousOn) fun t ht hS => ?_
    obtain ⟨d, hd, hd'⟩ := hw t ht hS
    refine ⟨_, ?_, (hd'.add_const (ε / K)).mul (hE t)⟩
    have e : d * exp (K * (t - a)) + (w t + ε / K) * (exp (K * (t - a)) * K)
        = (d + K * w t + ε) * exp (K * (t - a)) := by field_simp; ring
    rw [e]
    exact mul_nonpos_of_nonpos_of_nonneg (by linarith) (exp_pos _).le
  have h2 : ∀ t ∈ Set.Icc a b, w t ≤ ε / K * exp (-(K * (t - a))) - ε / K := by
    intro t ht
    have := h1 ⟨le_rfl, hab⟩ ht ht.1
    simp only [sub_self, mul_zero, exp_zero, mul_one] at this
    have hp := exp_pos (K * (t - a))
    have h3 : (w t + ε / K) * exp (K * (t - a)) ≤ ε / K := by linarith
    rw [exp_neg, ← div_eq_mul_inv, le_sub_iff_add_le, le_div_iff₀ hp]
    exact h3
  have h4 : AntitoneOn (fun t => r t + ε / K * (t + exp (-(K * (t - a))) / K)) (Set.Icc a b) := by
    refine antitoneOn_off _ S a b (hrc.add (by fun_prop)) fun t ht hS => ?_
    refine ⟨_, ?_, (hr t ht hS).add (((hasDerivAt_id t).add ((hE' t).div_const K)).const_mul (ε / K))⟩
    have := h2 t ⟨ht.1.le, ht.2.le⟩
    have e : w t + ε / K * (1 + exp (-(K * (t - a))) * -K / K)
        = w t - (ε / K * exp (-(K * (t - a))) - ε / K) := by field_simp; ring
    rw [e]
    linarith
  have h5 := h4 ⟨le_rfl, hab⟩ ⟨hab, le_rfl⟩ hab
  simp only [sub_self, mul_zero, neg_zero, exp_zero] at h5
  have hp := exp_pos (-(K * (b - a)))
  have h6 : ε / K * (b - a) ≤ r a - r b + ε / K * (1 / K) := by
    have : 0 ≤ ε / K * (exp (-(K * (b - a))) / K) := by positivity
    linarith
  have h7 := mul_le_mul_of_nonneg_left h6 (by positivity : 0 ≤ K / ε)
  have e1 : K / ε * (ε / K * (b - a)) = b - a := by field_simp
  have e2 : K / ε * (r a - r b + ε / K * (1 / K)) = 1 / K + (r a - r b) * K / ε := by field_simp; ring
  rw [e1, e2] at h7
  exact h7

/-- C144: a vehicle of constant drag coefficient and suborbital energy, without upward lift and not climbing at the start,
stays above the surface for at most the time in which drag would bring its sinking to a steady rate plus the time in which
it sinks through its altitude at that rate. -/
theorem C144_comes_down (name : String) (P : Planet)
    (hP : Planet.init name = .ok P) (m beta LD A alpha RN : ℝ) (atm : Atmosphere) (f : ℝ → ℝ)
    (st : InitState) (hm : 0 < m) (hb : 0 < beta) (hA : 0 < A) (delta : ℝ → ℝ) (y : ℝ → FState)
    (a b M : ℝ) (hab : a ≤ b) (S : Finset ℝ) (hM : 0 < M)
    (hatm : ∀ h, 0 ≤ h → h ≤ P.hThres → 0 ≤ atm.densityInt h ∧ atm.densityInt h ≤ M)
    (hy : SwitchedFlight (fun t s => (Vehicle.mk' m beta LD A alpha RN P atm false f st).EOM s t (delta t)) y a b S)
    (hr : ∀ t ∈ Set.Icc a b, 1 ≤ (y t).r) (hv : ∀ t ∈ Set.Icc a b, 0 < (y t).v)
    (hd : ∀ t ∈ Set.Icc a b, LD * cos (delta t) ≤ 0)
    (hl : LD = 0 ∨ ∀ t ∈ Set.Icc a b, 0 ≤ cos (y t).gamma)
    (hg : ∀ t ∈ Set.Icc a b, -π ≤ (y t).gamma)
    (ha : (y a).gamma ≤ 0)
    (hJ : Suborbital P (y a).r (jacobi P.J2 P.J3 P.OMEGAbar (y a).r (y a).phi (y a).v)) :
    b - a ≤ 1 / brakingBound P beta M + ((y a).r - 1) * (y a).r * brakingBound P beta M /
      (2 * energyShortfall P (y a).r (jacobi P.J2 P.J3 P.OMEGAbar (y a).r (y a).phi (y a).v)) := by
  obtain ⟨_, hR, _⟩ := C01_planet_consistent name P hP
  have hatm' : ∀ h, 0 ≤ h → h ≤ P.hThres → 0 ≤ atm.densityInt h := fun h h0 h1 => (hatm h h0 h1).1
  set J := jacobi P.J2 P.J3 P.OMEGAbar (y a).r (y a).phi (y a).v with hJd
  have hE : 0 < energyShortfall P (y a).r J := by unfold energyShortfall; linarith [hJ.1]
  have hz : 0 ≤ zonal P := by unfold zonal; positivity
  have hK : 0 < brakingBound P beta M := by
    have : 0 < √(1 + zonal P) := sqrt_pos.mpr (by linarith)
    unfold brakingBound
    positivity
  set K := brakingBound P beta M with hKd
  set E := energyShortfall P (y a).r J with hEd
  have hy0 : SwitchedFlight (fun t s => (Vehicle.mk' m beta LD A alpha RN P atm false (fun _ => 0) st).EOM s t (delta t))
      y a b S := hy
  obtain ⟨hneg, hanti⟩ := C101_suborbital_never_climbs name P hP m beta LD A alpha RN atm false (fun _ => 0) st hm hb hA
    (fun _ => le_rfl) delta y a b S hatm' hy0 hr hv hd hg ha hJ
  have hen := C18_switched_never_increases name P hP m beta LD A alpha RN atm false (fun _ => 0) st hm hb hA
    (fun _ => le_rfl) delta y a b S hatm' hy0 (fun s hs => by have := hr s hs; linarith) (fun s hs => (hv s hs).le)
  have haI : a ∈ Set.Icc a b := ⟨le_rfl, hab⟩
  have hra := hr a haI
  have hra0 : 0 < (y a).r := by linarith
  have hsin : ∀ t ∈ Set.Icc a b, sin (y t).gamma ≤ 0 := fun t ht =>
    sin_nonpos_of_nonpos_of_neg_pi_le (hneg t ht) (hg t ht)
  have key := falls (fun t => (y t).r) (fun t => (y t).v * sin (y t).gamma) S (ε := 2 * E / (y a).r) hab hK (by positivity)
    hy.r (hy.v.mul (continuous_sin.comp_continuousOn hy.gamma)) (fun t ht hS => (hy.solves t ht hS).r) ?_
    (mul_nonpos_of_nonneg_of_nonpos (hv a haI).le (hsin a haI))
  · refine key.trans ?_
    have hbI : 1 ≤ (y b).r := hr b ⟨hab, le_rfl⟩
    have e : ((y a).r - (y b).r) * K / (2 * E / (y a).r) = ((y a).r - (y b).r) * ((y a).r * K / (2 * E)) := by
      field_simp
    have e' : ((y a).r - 1) * (y a).r * K / (2 * E) = ((y a).r - 1) * ((y a).r * K / (2 * E)) := by ring
    rw [e, e']
    have : 0 ≤ (y a).r * K / (2 * E) := by positivity
    have := mul_le_mul_of_nonneg_right (by linarith : (y a).r - (y b).r ≤ (y a).r - 1) this
    linarith
  · intro t ht hS
    have ht' := Set.Ioo_subset_Icc_self ht
    have hsol := hy.solves t ht hS
    refine ⟨_, ?_, hsol.v.mul hsol.gamma.sin⟩
    have hrt := hr t ht'
    have hrt0 : 0 < (y t).r := by linarith
    have hle := hanti haI ht' ht.1.le
    obtain ⟨m1, m2⟩ := suborbital_margin P hJ hrt hle (y t).theta (y t).phi (y t).v (y t).psi (y t).gamma (hv t ht')
      (hen haI ht' ht.1.le)
    have hva := C144_vertical_acceleration (Vehicle.mk' m beta LD A alpha RN P atm false f st) (y t) t (delta t) hrt0 (hv t ht')
    rw [hva, a_sbar_physical name P hP m beta LD A alpha RN atm f st hm hb hA]
    have hrho0 := (C03_density_nonneg name P hP atm hatm' ((y t).r * P.RP) (y t).theta (y t).phi).1
    have hrhoM : P.rho atm ((y t).r * P.RP) (y t).theta (y t).phi ≤ M := by
      have hh : 0 ≤ (y t).r * P.RP - P.RP := by nlinarith
      have hT : 0 ≤ P.hThres := by
        obtain ⟨_, _, _, _, _, h1, h2, h3, _⟩ := C01_planet_consistent name P hP
        linarith
      obtain ⟨g1, g2, _⟩ := C03_density_regimes P atm ((y t).r * P.RP - P.RP) hT
      simp only [Planet.rho]
      rcases le_or_gt ((y t).r * P.RP - P.RP) P.hThres with h | h
      · rw [g1 hh h]; exact (hatm _ hh h).2
      · rw [g2 h]; exact hM.le
    have hlift : (Vehicle.mk' m beta LD A alpha RN P atm false f st).a_nbar (y t).r (y t).theta (y t).phi (y t).v (delta t)
        * cos (y t).gamma ≤ 0 := by
      rcases hl with h | h
      · have : (Vehicle.mk' m beta LD A alpha RN P atm false f st).a_nbar (y t).r (y t).theta (y t).phi (y t).v (delta t)
            = 0 := by
          simp [Vehicle.a_nbar, Vehicle.Lbar, Vehicle.mk', h, l00]
        rw [this, zero_mul]
      · exact mul_nonpos_of_nonpos_of_nonneg
          (lift_not_up name P hP m beta LD A alpha RN atm false f st hm hb hA hatm' _ _ _ _ _ (hd t ht')) (h t ht')
    have hcent : (inertialSpeedSq P.OMEGAbar (y t).r (y t).theta (y t).phi (y t).v (y t).psi (y t).gamma
        - ((y t).v * sin (y t).gamma) ^ 2) / (y t).r - gravityDown P.J2 P.J3 (y t).r (y t).phi ≤ -(2 * E / (y a).r) := by
      have e : gravityDown P.J2 P.J3 (y t).r (y t).phi = (y t).r * gravityDown P.J2 P.J3 (y t).r (y t).phi / (y t).r := by
        field_simp
      rw [e, ← sub_div]
      have h1 : 2 * E / (y a).r ≤ 2 * E / (y t).r := div_le_div_of_nonneg_left (by positivity) hrt0 hle
      refine le_trans (div_le_div_of_nonneg_right (c := (y t).r) (b := -(2 * E)) (by linarith) hrt0.le) ?_
      rw [neg_div]
      linarith
    have hdrag : -(P.RP * P.rho atm ((y t).r * P.RP) (y t).theta (y t).phi * (y t).v ^ 2 / (2 * beta)) * sin (y t).gamma
        ≤ -K * ((y t).v * sin (y t).gamma) := by
      have h1 : P.RP * P.rho atm ((y t).r * P.RP) (y t).theta (y t).phi * (y t).v / (2 * beta) ≤ K := by
        rw [hKd, brakingBound]
        refine div_le_div_of_nonneg_right ?_ (by positivity)
        exact mul_le_mul (mul_le_mul_of_nonneg_left hrhoM hR.le) m2 (hv t ht').le (by positivity)
      have h2 : 0 ≤ (y t).v * -sin (y t).gamma := mul_nonneg (hv t ht').le (by linarith [hsin t ht'])
      have h3 := mul_le_mul_of_nonneg_right h1 h2
      calc _ = P.RP * P.rho atm ((y t).r * P.RP) (y t).theta (y t).phi * (y t).v / (2 * beta)
            * ((y t).v * -sin (y t).gamma) := by ring
        _ ≤ _ := h3
        _ = _ := by ring
    have hcent' : (inertialSpeedSq (Vehicle.mk' m beta LD A alpha RN P atm false f st).planet.OMEGAbar (y t).r (y t).theta
        (y t).phi (y t).v (y t).psi (y t).gamma - ((y t).v * sin (y t).gamma) ^ 2) / (y t).r
        - gravityDown (Vehicle.mk' m beta LD A alpha RN P atm false f st).planet.J2
          (Vehicle.mk' m beta LD A alpha RN P atm false f st).planet.J3 (y t).r (y t).phi ≤ -(2 * E / (y a).r) := hcent
    linarith

/-- Vertical component of the lift of a vehicle. -/
theorem lift_vertical (name : String) (P : Planet)
    (hP : Planet.init name = .ok P) (m beta LD A alpha RN : ℝ) (atm : Atmosphere) (u : Bool) (f : ℝ → ℝ)
    (st : InitState) (hm : 0 < m) (hb : 0 < beta) (hA : 0 < A)
    (hatm : ∀ h, 0 ≤ h → h ≤ P.hThres → 0 ≤ atm.densityInt h) (r theta phi v delta g : ℝ) (hd : LD * cos delta * g ≤ 0) :
    (Vehicle.mk' m beta LD A alpha RN P atm u f st).a_nbar r theta phi v delta * g ≤ 0 := by
  obtain ⟨-, h2, -⟩ := C15_dimensionless_aero name P hP m beta LD A alpha RN atm u f st hm r theta phi v delta
  obtain ⟨_, hR, _, _, _, _, _, _, hV, _⟩ := C01_planet_consistent name P hP
  rw [h2]
  have h1 := (C03_density_nonneg name P hP atm hatm (r * P.RP) theta phi).1
  have e : (Vehicle.mk' m beta LD A alpha RN P atm u f st).a_n (r * P.RP) theta phi (v * P.Vref) delta
      = 1 / 2 * P.rho atm (r * P.RP) theta phi * (v * P.Vref) ^ 2 * A * (m / (beta * A)) / m * (LD * cos delta) := by
    simp only [Vehicle.a_n, Vehicle.L, Vehicle.mk', l00, l05]
    ring
  rw [e]
  have e2 : ∀ c k : ℝ, c * (k * (LD * cos delta)) * g = c * k * (LD * cos delta * g) := by intros; ring
  rw [e2]
  refine mul_nonpos_of_nonneg_of_nonpos (mul_nonneg (by positivity) ?_) hd
  have := mul_pos hb hA
  positivity

/-- A function that decreases at least at the rate `ε` where it is positive is not positive from some time on, and that time is
at most its first value over `ε` later. -/
theorem sinks (w : ℝ → ℝ) (S : Finset ℝ) {a b ε : ℝ} (hε : 0 < ε)
    (hwc : ContinuousOn w (Set.Icc a b))
    (hw : ∀ t ∈ Set.Ioo a b, t ∉ S → 0 < w t → ∃ d ≤ -ε, HasDerivAt w d t) :
    (∀ t ∈ Set.Icc a b, t - a ≤ w a / ε ∨ w t ≤ 0) ∧
    (∀ t ∈ Set.Icc a b, w t ≤ 0 → ∀ t' ∈ Set.Icc t b, w t' ≤ 0) := by
  -- while the function is positive it decreases
  have hdec : ∀ s t, a ≤ s → s ≤ t → t ≤ b → (∀ x ∈ Set.Ioo s t, 0 < w x) → w t + ε * (t - s) ≤ w s := by
    intro s t has hst htb hpos
    have hanti : AntitoneOn (fun x => w x + ε * x) (Set.Icc s t) := by
      refine antitoneOn_off _ S s t ((hwc.mono (Set.Icc_subset_Icc has htb)).add (by fun_prop)) fun x hx hS => ?_
      obtain ⟨d, hd, hd'⟩ := hw x ⟨has.trans_lt hx.1, hx.2.trans_le htb⟩ hS (hpos x hx)
      refine ⟨_, ?_, hd'.add ((hasDerivAt_id x).const_mul ε)⟩
      linarith
    have := hanti ⟨le_rfl, hst⟩ ⟨hst, le_rfl⟩ hst
    simp only at this
    linarith
  have hstay : ∀ t ∈ Set.Icc a b, w t ≤ 0 → ∀ t' ∈ Set.Icc t b, w t' ≤ 0 := by
    intro t ht hwt t' ht'
    by_contra hn
    have hn' := not_le.mp hn
    set Z := {x | x ∈ Set.Icc t t' ∧ w x ≤ 0} with hZ
    have hcont : ContinuousOn w (Set.Icc t t') := hwc.mono (Set.Icc_subset_Icc ht.1 ht'.2)
    have hZc : IsClosed Z := by
      have : Z = Set.Icc t t' ∩ w ⁻¹' Set.Iic 0 := by ext x; simp [hZ]
      rw [this]
      exact hcont.preimage_isClosed_of_isClosed isClosed_Icc isClosed_Iic
    have hZb : BddAbove Z := ⟨t', fun x hx => hx.1.2⟩
    have hZn : Z.Nonempty := ⟨t, ⟨le_rfl, ht'.1⟩, hwt⟩
    have hq := hZc.csSup_mem hZn hZb
    set q := sSup Z with hqd
    have := hdec q t' (ht.1.trans hq.1.1) hq.1.2 ht'.2 fun x hx => by
      by_contra hx0
      have : x ∈ Z := ⟨⟨hq.1.1.trans hx.1.le, hx.2.le⟩, not_lt.mp hx0⟩
      exact absurd (le_csSup hZb this) (not_le.mpr hx.1)
    have h3 : 0 ≤ ε * (t' - q) := mul_nonneg hε.le (by linarith [hq.1.2])
    linarith [hq.2]
  refine ⟨fun t ht => ?_, hstay⟩
  by_contra hn
  push Not at hn
  obtain ⟨h1, h2⟩ := hn
  have hpos : ∀ x ∈ Set.Ioo a t, 0 < w x := by
    intro x hx
    by_contra hx0
    exact absurd (hstay x ⟨hx.1.le, hx.2.le.trans ht.2⟩ (not_lt.mp hx0) t ⟨hx.2.le, ht.2⟩) (not_le.mpr h2)
  have := hdec a t le_rfl ht.1 ht.2 hpos
  rw [div_lt_iff₀ hε] at h1
  linarith

/-- C144, for any flight-path angle at the start: a vehicle of constant drag coefficient whose energy keeps it below the radius
`r0` and is suborbital up to there, and whose lift has no upward component, stays above the surface for at most the time in which
its weight stops its climb plus the time in which it comes down from `r0`. -/
theorem C144_goes_up_comes_down (name : String) (P : Planet)
    (hP : Planet.init name = .ok P) (m beta LD A alpha RN : ℝ) (atm : Atmosphere) (f : ℝ → ℝ)
    (st : InitState) (hm : 0 < m) (hb : 0 < beta) (hA : 0 < A) (delta : ℝ → ℝ) (y : ℝ → FState)
    (a b M r0 : ℝ) (hab : a ≤ b) (S : Finset ℝ) (hM : 0 < M)
    (hatm : ∀ h, 0 ≤ h → h ≤ P.hThres → 0 ≤ atm.densityInt h ∧ atm.densityInt h ≤ M)
    (hy : SwitchedFlight (fun t s => (Vehicle.mk' m beta LD A alpha RN P atm false f st).EOM s t (delta t)) y a b S)
    (hr : ∀ t ∈ Set.Icc a b, 1 ≤ (y t).r) (hv : ∀ t ∈ Set.Icc a b, 0 < (y t).v)
    (hl : ∀ t ∈ Set.Icc a b, LD * cos (delta t) * cos (y t).gamma ≤ 0) (hr0 : (y a).r ≤ r0)
    (hJ : Suborbital P r0 (jacobi P.J2 P.J3 P.OMEGAbar (y a).r (y a).phi (y a).v))
    (hceil : jacobi P.J2 P.J3 P.OMEGAbar (y a).r (y a).phi (y a).v + (1 + zonal P) / r0 + P.OMEGAbar ^ 2 * r0 ^ 2 / 2 < 0) :
    (∀ t ∈ Set.Icc a b, (y t).r ≤ r0) ∧
    b - a ≤ (y a).v * |sin (y a).gamma| * r0 /
        (2 * energyShortfall P r0 (jacobi P.J2 P.J3 P.OMEGAbar (y a).r (y a).phi (y a).v))
      + 1 / brakingBound P beta M + (r0 - 1) * r0 * brakingBound P beta M /
        (2 * energyShortfall P r0 (jacobi P.J2 P.J3 P.OMEGAbar (y a).r (y a).phi (y a).v)) := by
  obtain ⟨_, hR, _⟩ := C01_planet_consistent name P hP
  have hatm' : ∀ h, 0 ≤ h → h ≤ P.hThres → 0 ≤ atm.densityInt h := fun h h0 h1 => (hatm h h0 h1).1
  have haI : a ∈ Set.Icc a b := ⟨le_rfl, hab⟩
  have hy0 : SwitchedFlight (fun t s => (Vehicle.mk' m beta LD A alpha RN P atm false (fun _ => 0) st).EOM s t (delta t))
      y a b S := hy
  have hen := C18_switched_never_increases name P hP m beta LD A alpha RN atm false (fun _ => 0) st hm hb hA
    (fun _ => le_rfl) delta y a b S hatm' hy0 (fun s hs => by have := hr s hs; linarith) (fun s hs => (hv s hs).le)
  set J := jacobi P.J2 P.J3 P.OMEGAbar (y a).r (y a).phi (y a).v with hJd
  have hE : 0 < energyShortfall P r0 J := by unfold energyShortfall; linarith [hJ.1]
  have hz : 0 ≤ zonal P := by unfold zonal; positivity
  have hK : 0 < brakingBound P beta M := by
    have : 0 < √(1 + zonal P) := sqrt_pos.mpr (by linarith)
    unfold brakingBound
    positivity
  have hra := hr a haI
  have hr00 : 0 < r0 := by linarith
  -- the energy does not suffice to reach the radius `r0`
  have htop : ∀ t ∈ Set.Icc a b, (y t).r ≤ r0 := by
    intro t ht
    by_contra hn
    obtain ⟨q, hq, hq'⟩ := intermediate_value_Icc ht.1 (hy.r.mono (Set.Icc_subset_Icc_right ht.2)) ⟨hr0, (not_le.mp hn).le⟩
    have hqI : q ∈ Set.Icc a b := ⟨hq.1, hq.2.trans ht.2⟩
    have e : (y q).r = r0 := hq'
    have h1 : jacobi P.J2 P.J3 P.OMEGAbar (y q).r (y q).phi (y q).v ≤ J := hen haI hqI hq.1
    have h2 := potential_scaled P.J2 P.J3 (by rw [← e]; exact hr q hqI) (y q).phi (r := r0)
    have h3 : potential P.J2 P.J3 r0 (y q).phi ≤ (1 + zonal P) / r0 := by
      rw [le_div_iff₀ hr00]
      refine h2.trans ?_
      have := abs_nonneg P.J2; have := abs_nonneg P.J3
      unfold zonal; linarith
    have h4 : (P.OMEGAbar * r0 * cos (y q).phi) ^ 2 ≤ P.OMEGAbar ^ 2 * r0 ^ 2 := by
      rw [mul_pow, mul_pow]
      exact mul_le_of_le_one_right (by positivity) (cos_sq_le_one _)
    have h5 : jacobi P.J2 P.J3 P.OMEGAbar r0 (y q).phi (y q).v
        = (y q).v ^ 2 / 2 - potential P.J2 P.J3 r0 (y q).phi - (P.OMEGAbar * r0 * cos (y q).phi) ^ 2 / 2 := by
      unfold jacobi; ring
    rw [e, h5] at h1
    have := sq_nonneg (y q).v
    linarith
  refine ⟨htop, ?_⟩
  set K := brakingBound P beta M with hKd
  set E := energyShortfall P r0 J with hEd
  set ε := 2 * E / r0 with hεd
  have hε : 0 < ε := by positivity
  set w : ℝ → ℝ := fun t => (y t).v * sin (y t).gamma with hw
  have hwc : ContinuousOn w (Set.Icc a b) := hy.v.mul (continuous_sin.comp_continuousOn hy.gamma)
  have hrate : ∀ t ∈ Set.Ioo a b, t ∉ S → ∃ k d, 0 ≤ k ∧ k ≤ K ∧ d ≤ -k * w t - ε ∧ HasDerivAt w d t := by
    intro t ht hS
    have ht' := Set.Ioo_subset_Icc_self ht
    have hsol := hy.solves t ht hS
    have hrt := hr t ht'
    have hrt0 : 0 < (y t).r := by linarith
    have hle := htop t ht'
    obtain ⟨m1, m2⟩ := suborbital_margin P hJ hrt hle (y t).theta (y t).phi (y t).v (y t).psi (y t).gamma (hv t ht')
      (hen haI ht' ht.1.le)
    have hrho0 := (C03_density_nonneg name P hP atm hatm' ((y t).r * P.RP) (y t).theta (y t).phi).1
    have hrhoM : P.rho atm ((y t).r * P.RP) (y t).theta (y t).phi ≤ M := by
      have hh : 0 ≤ (y t).r * P.RP - P.RP := by nlinarith
      have hT : 0 ≤ P.hThres := by
        obtain ⟨_, _, _, _, _, h1, h2, h3, _⟩ := C01_planet_consistent name P hP
        linarith
      obtain ⟨g1, g2, _⟩ := C03_density_regimes P atm ((y t).r * P.RP - P.RP) hT
      simp only [Planet.rho]
      rcases le_or_gt ((y t).r * P.RP - P.RP) P.hThres with h | h
      · rw [g1 hh h]; exact (hatm _ hh h).2
      · rw [g2 h]; exact hM.le
    have h1 : P.RP * P.rho atm ((y t).r * P.RP) (y t).theta (y t).phi * (y t).v / (2 * beta) ≤ K := by
      rw [hKd, brakingBound]
      refine div_le_div_of_nonneg_right ?_ (by positivity)
      exact mul_le_mul (mul_le_mul_of_nonneg_left hrhoM hR.le) m2 (hv t ht').le (by positivity)
    have h2 : 0 ≤ P.RP * P.rho atm ((y t).r * P.RP) (y t).theta (y t).phi * (y t).v / (2 * beta) := by
      have := (hv t ht').le
      positivity
    refine ⟨_, _, h2, h1, ?_, hsol.v.mul hsol.gamma.sin⟩
    have hva := C144_vertical_acceleration (Vehicle.mk' m beta LD A alpha RN P atm false f st) (y t) t (delta t) hrt0 (hv t ht')
    rw [hva, a_sbar_physical name P hP m beta LD A alpha RN atm f st hm hb hA]
    have hlift := lift_vertical name P hP m beta LD A alpha RN atm false f st hm hb hA hatm' (y t).r (y t).theta (y t).phi
      (y t).v (delta t) (cos (y t).gamma) (hl t ht')
    have hcent : (inertialSpeedSq P.OMEGAbar (y t).r (y t).theta (y t).phi (y t).v (y t).psi (y t).gamma
        - ((y t).v * sin (y t).gamma) ^ 2) / (y t).r - gravityDown P.J2 P.J3 (y t).r (y t).phi ≤ -ε := by
      have e : gravityDown P.J2 P.J3 (y t).r (y t).phi = (y t).r * gravityDown P.J2 P.J3 (y t).r (y t).phi / (y t).r := by
        field_simp
      rw [e, ← sub_div]
      have h1 : 2 * E / r0 ≤ 2 * E / (y t).r := div_le_div_of_nonneg_left (by positivity) hrt0 hle
      refine le_trans (div_le_div_of_nonneg_right (c := (y t).r) (b := -(2 * E)) (by linarith) hrt0.le) ?_
      rw [neg_div]
      linarith
    have hcent' : (inertialSpeedSq (Vehicle.mk' m beta LD A alpha RN P atm false f st).planet.OMEGAbar (y t).r (y t).theta
        (y t).phi (y t).v (y t).psi (y t).gamma - ((y t).v * sin (y t).gamma) ^ 2) / (y t).r
        - gravityDown (Vehicle.mk' m beta LD A alpha RN P atm false f st).planet.J2
          (Vehicle.mk' m beta LD A alpha RN P atm false f st).planet.J3 (y t).r (y t).phi ≤ -ε := hcent
    have hdrag : -(P.RP * P.rho atm ((y t).r * P.RP) (y t).theta (y t).phi * (y t).v ^ 2 / (2 * beta)) * sin (y t).gamma
        = -(P.RP * P.rho atm ((y t).r * P.RP) (y t).theta (y t).phi * (y t).v / (2 * beta)) * w t := by
      simp only [hw]; ring
    rw [hdrag]
    linarith
  have hwa : w a ≤ (y a).v * |sin (y a).gamma| := mul_le_mul_of_nonneg_left (le_abs_self _) (hv a haI).le
  have hwe : (y a).v * |sin (y a).gamma| * r0 / (2 * E) = (y a).v * |sin (y a).gamma| / ε := by
    rw [hεd]; field_simp
  have hfin : ∀ x, (r0 - 1) * r0 * K / (2 * E) = (r0 - 1) * K / ε ∧
      (x ≤ (r0 - 1) → x * K / ε ≤ (r0 - 1) * K / ε) := fun x =>
    ⟨by rw [hεd]; field_simp, fun hx => div_le_div_of_nonneg_right (mul_le_mul_of_nonneg_right hx hK.le) hε.le⟩
  rw [hwe, (hfin 0).1]
  have hvs : 0 ≤ (y a).v * |sin (y a).gamma| / ε := div_nonneg (mul_nonneg (hv a haI).le (abs_nonneg _)) hε.le
  -- from a time at which the vehicle does not climb
  have hdown : ∀ s ∈ Set.Icc a b, w s ≤ 0 → (∀ t ∈ Set.Icc s b, w t ≤ 0) → b - s ≤ 1 / K + (r0 - 1) * K / ε := by
    intro s hs hws hneg
    have := falls (fun t => (y t).r) w S hs.2 hK hε (hy.r.mono (Set.Icc_subset_Icc_left hs.1))
      (hwc.mono (Set.Icc_subset_Icc_left hs.1)) (fun t ht hS => (hy.solves t ⟨hs.1.trans_lt ht.1, ht.2⟩ hS).r)
      (fun t ht hS => by
        obtain ⟨k, d, k0, kK, hd, hd'⟩ := hrate t ⟨hs.1.trans_lt ht.1, ht.2⟩ hS
        refine ⟨d, hd.trans ?_, hd'⟩
        have := mul_le_mul_of_nonpos_right kK (hneg t ⟨ht.1.le, ht.2.le⟩)
        linarith) hws
    have h1 := htop s hs
    have h2 := hr b ⟨hab, le_rfl⟩
    have := (hfin ((y s).r - (y b).r)).2 (by linarith)
    linarith
  have hposrate : ∀ t ∈ Set.Ioo a b, t ∉ S → 0 < w t → ∃ d ≤ -ε, HasDerivAt w d t := by
    intro t ht hS hpos
    obtain ⟨k, d, k0, kK, hd, hd'⟩ := hrate t ht hS
    refine ⟨d, hd.trans ?_, hd'⟩
    have := mul_nonneg k0 hpos.le
    linarith
  obtain ⟨k1, k2⟩ := sinks w S hε hwc hposrate
  have hr01 : 0 ≤ r0 - 1 := by linarith
  have hB : 0 ≤ 1 / K + (r0 - 1) * K / ε := by positivity
  by_contra hn
  set x := b - a - ((y a).v * |sin (y a).gamma| / ε + 1 / K + (r0 - 1) * K / ε) with hx
  have hx0 : 0 < x := by linarith
  set s := a + (y a).v * |sin (y a).gamma| / ε + x / 2 with hs
  have hsI : s ∈ Set.Icc a b := ⟨by linarith, by linarith⟩
  have hws : w s ≤ 0 := by
    rcases k1 s hsI with h | h
    · have := div_le_div_of_nonneg_right hwa hε.le
      linarith
    · exact h
  have := hdown s hsI hws (k2 s hsI hws)
  linarith

/-- The longest time, in units of `tau`, for which `C144_comes_down` lets a vehicle stay above the surface. -/
def fallTime (P : Planet) (beta M : ℝ) (s : FState) : ℝ :=
  1 / brakingBound P beta M + (s.r - 1) * s.r * brakingBound P beta M /
    (2 * energyShortfall P s.r (jacobi P.J2 P.J3 P.OMEGAbar s.r s.phi s.v))

/-- C144: in a shipped atmosphere such a vehicle, flown at a constant bank angle, comes within that time down to the altitude
`h0` or meets another obstacle: it slows down to the speed `v0`, comes near a pole or near vertical flight, or is almost
horizontal near the edge of the atmosphere. -/
theorem C144_flight_ends (name : String) (F : AtmFile) (hF : (name, F) ∈ shippedFiles) (P : Planet)
    (hP : Planet.init name = .ok P) (atm : Atmosphere) (hatm : LoadedCubic P F.km (fileRows F) atm)
    (m beta LD A alpha RN : ℝ) (f : ℝ → ℝ) (st : InitState) (hm : 0 < m) (hb : 0 < beta) (hA : 0 < A)
    (d M h0 v0 c η : ℝ) (hh : 0 < h0) (hv : 0 < v0) (hc : 0 < c) (hη : 0 < η)
    (hM : ∀ h, 0 ≤ h → h ≤ P.hThres → atm.densityInt h ≤ M) (hd : LD * cos d ≤ 0)
    (s : FState) (hs : Clear P h0 v0 c η s) (hg : -(π / 2) ≤ s.gamma) (hg0 : s.gamma ≤ 0)
    (hJ : Suborbital P s.r (jacobi P.J2 P.J3 P.OMEGAbar s.r s.phi s.v)) :
    ∃ (y : ℝ → FState) (b : ℝ) (S : Finset ℝ), y 0 = s ∧
      SwitchedFlight (fun t s => (Vehicle.mk' m beta LD A alpha RN P atm false f st).EOM s t d) y 0 b S ∧
      ∃ τ ∈ Set.Ico 0 b, τ ≤ fallTime P beta M s ∧ (∀ t ∈ Set.Icc 0 τ, Clear P h0 v0 c η (y t)) ∧
        ∀ ε > 0, ∃ t ∈ Set.Ioc τ (τ + ε), t ≤ b ∧ ¬ Clear P h0 v0 c η (y t) := by
  obtain ⟨_, hR, _, _, _, hTr, hTS, hST, _⟩ := C01_planet_consistent name P hP
  have hdens : ∀ h, 0 ≤ h → h ≤ P.hThres → 0 < atm.densityInt h := by
    intro z hz0 hz1
    have := (C85_density_positive name F hF P hP atm hatm z).mpr hz1
    rw [Planet.density, if_pos ⟨hz0, hz1⟩] at this
    exact this
  have hT0 : 0 ≤ P.hThres := by linarith
  have hM0 : 0 < M := (hdens 0 le_rfl hT0).trans_le (hM 0 le_rfl hT0)
  have hone : ∀ x, Clear P h0 v0 c η x → 1 ≤ x.r := by
    intro x hx
    have := hx.low
    by_contra hn
    have := mul_lt_mul_of_pos_right (not_le.mp hn) hR
    linarith
  -- every clear flight from this state is short
  have hshort : ∀ (y : ℝ → FState) (b : ℝ) (S : Finset ℝ), 0 ≤ b → y 0 = s →
      SwitchedFlight (fun t s => (Vehicle.mk' m beta LD A alpha RN P atm false f st).EOM s t d) y 0 b S →
      (∀ t ∈ Set.Icc 0 b, Clear P h0 v0 c η (y t)) → b ≤ fallTime P beta M s := by
    intro y b S hb0 y0 hy hcl
    have hgam : ∀ t ∈ Set.Icc 0 b, -(π / 2) ≤ (y t).gamma := by
      intro t ht
      by_contra hn
      have hcont := hy.gamma.mono (Set.Icc_subset_Icc_right ht.2)
      obtain ⟨q, hq, hq'⟩ := intermediate_value_Icc' ht.1 hcont ⟨(not_le.mp hn).le, by rw [y0]; exact hg⟩
      have := (hcl q ⟨hq.1, hq.2.trans ht.2⟩).gamma
      have e : (y q).gamma = -(π / 2) := hq'
      rw [e, cos_neg, cos_pi_div_two] at this
      linarith
    have := C144_comes_down name P hP m beta LD A alpha RN atm f st hm hb hA (fun _ => d) y 0 b M hb0 S hM0
      (fun h z0 z1 => ⟨(hdens h z0 z1).le, hM h z0 z1⟩) hy (fun t ht => hone _ (hcl t ht))
      (fun t ht => hv.trans_le (hcl t ht).slow) (fun _ _ => hd) (Or.inr fun t ht => hc.le.trans (hcl t ht).gamma)
      (fun t ht => by have := hgam t ht; linarith [pi_pos]) (by rw [y0]; exact hg0) (by rw [y0]; exact hJ)
    rw [y0, sub_zero] at this
    exact this
  have hE : 0 < energyShortfall P s.r (jacobi P.J2 P.J3 P.OMEGAbar s.r s.phi s.v) := by
    unfold energyShortfall; linarith [hJ.1]
  have hz : 0 ≤ zonal P := by unfold zonal; positivity
  have hK : 0 < brakingBound P beta M := by
    have : 0 < √(1 + zonal P) := sqrt_pos.mpr (by linarith)
    unfold brakingBound
    positivity
  have hs1 := hone s hs
  have hF0 : 0 ≤ fallTime P beta M s := by
    have h1 : 0 ≤ s.r - 1 := by linarith
    have h2 : 0 ≤ s.r := by linarith
    unfold fallTime
    positivity
  obtain ⟨y, b, S, hb0, -, y0, hy, hend⟩ := C100_flight_ends_at_obstacle name F hF P hP atm hatm m beta LD A alpha RN false
    (fun _ => 0) st hm hb hA (fun h => absurd h (by simp)) (fun _ => le_rfl) d (fallTime P beta M s + 1) h0 v0 c η
    (by linarith) hh hv hc hη s hs
  have hy' : SwitchedFlight (fun t s => (Vehicle.mk' m beta LD A alpha RN P atm false f st).EOM s t d) y 0 b S := hy
  rcases hend with ⟨e, hcl⟩ | ⟨τ, hτ, hcl, hun⟩
  · have := hshort y b S hb0.le y0 hy' (by rw [e]; exact hcl)
    linarith
  · exact ⟨y, b, S, y0, hy', τ, hτ, hshort y τ S hτ.1 y0 (flight_mono hy' le_rfl hτ.2.le) hcl, hcl, hun⟩

/-- Case for `C144_goes_up_comes_down`: a vehicle without lift that climbs 50 km above Mars, at three tenths of the orbital speed,
flies for some time, stays below 680 km and for less than the stated time above the surface. -/
example : ∃ (P : Planet) (atm : Atmosphere) (y : ℝ → FState) (b E : ℝ) (S : Finset ℝ),
    Planet.init "MARS" = .ok P ∧ LoadedCubic P mars.km (fileRows mars) atm ∧ 0 < b ∧ 0 < E ∧
    y 0 = ⟨1 + 50000 / P.RP, 0, 0, 3 / 10, 0, 1 / 2, 0⟩ ∧
    SwitchedFlight (fun t s => (Vehicle.mk' 1000 100 0 10 0 1 P atm false demoCurve marsDescent).EOM s t 0) y 0 b S ∧
    (∀ t ∈ Set.Icc 0 b, (y t).r ≤ 6 / 5) ∧
    b ≤ 3 / 10 * |sin (1 / 2)| * (6 / 5) / (2 * E) + 1 / brakingBound P 100 (P.density atm 0)
      + (6 / 5 - 1) * (6 / 5) * brakingBound P 100 (P.density atm 0) / (2 * E) := by
  obtain ⟨P, hP⟩ := (C01_planet_names "MARS").1.mpr (by simp [Spec.bodies])
  have hF : ("MARS", mars) ∈ shippedFiles := by simp [shippedFiles]
  obtain ⟨atm, hatm⟩ := (C85_loads "MARS" mars hF P hP).1
  obtain ⟨_, hRP, _, _, _, _, _, _, hV, ht, hVV, hTV, hO, _⟩ := C01_planet_consistent "MARS" P hP
  have c : P.RP = 3389500 ∧ P.GM = 42828370000000 ∧ P.J2 = 196045 / 100000000 ∧ P.J3 = 315 / 10000000 ∧
      P.OMEGA = 7088253 / 100000000000 ∧ P.hThres = 120000 := by
    simp [Planet.init] at hP
    subst hP
    norm_num [Planet.withScales]
  obtain ⟨c1, c2, c3, c4, c5, hT⟩ := c
  have hT0 : 0 ≤ P.hThres := by rw [hT]; norm_num
  have hM : ∀ h, 0 ≤ h → h ≤ P.hThres → 0 ≤ atm.densityInt h ∧ atm.densityInt h ≤ P.density atm 0 := by
    intro h h0 h1
    have e : P.density atm h = atm.densityInt h := by rw [Planet.density, if_pos ⟨h0, h1⟩]
    rw [← e]
    refine ⟨((C85_density_positive "MARS" mars hF P hP atm hatm h).mpr h1).le, ?_⟩
    rcases h0.eq_or_lt with h2 | h2
    · rw [← h2]
    · exact (C85_density_decreasing_partial "MARS" mars hF (by simp) P hP atm hatm 0 h le_rfl hT0 h2).le
  have hM0 := (C85_density_positive "MARS" mars hF P hP atm hatm 0).mpr hT0
  set s : FState := ⟨1 + 50000 / P.RP, 0, 0, 3 / 10, 0, 1 / 2, 0⟩ with hs
  have halt : (1 + 50000 / P.RP) * P.RP - P.RP = 50000 := by field_simp; ring
  have hcos : 0 < cos (1 / 2 : ℝ) := cos_pos_of_mem_Ioo ⟨by linarith [two_le_pi], by linarith [two_le_pi]⟩
  have hdep : Departure P s :=
    ⟨by simp [hs], by simp [hs], by
      intro h
      have h' : cos (1 / 2 : ℝ) = -0.01 := h
      rw [h'] at hcos; norm_num at hcos, by simp only [hs, halt]; norm_num,
      by simp only [hs, halt, hT]; norm_num⟩
  obtain ⟨y, b₁, hb₁, hy0, -, hy⟩ := (C88_forward_flight "MARS" mars hF P hP atm hatm 1000 100 0 10 0 1 false demoCurve
    marsDescent (by simp) 0 0 s hdep).1
  have hr1 : 1 < s.r := by
    have : 0 < 50000 / P.RP := by positivity
    simp only [hs]; linarith
  have hev : ∀ᶠ t in nhdsWithin 0 (Set.Ioi 0), 1 < (y t).r ∧ 0 < (y t).v := by
    have hlim := flight_right hy hb₁
    rw [hy0] at hlim
    have k1 : Continuous fun x : R7 => x.1 := by fun_prop
    have k2 : Continuous fun x : R7 => x.2.2.2.1 := by fun_prop
    exact (((k1.tendsto s.toR7).comp hlim).eventually (lt_mem_nhds (show 1 < s.r from hr1))).and
      (((k2.tendsto s.toR7).comp hlim).eventually (lt_mem_nhds (show 0 < s.v by simp [hs])))
  obtain ⟨e, he, hall⟩ := mem_nhdsGT_iff_exists_Ioc_subset.mp hev
  have he' : (0:ℝ) < e := he
  have hgood : ∀ t ∈ Set.Icc 0 (min b₁ e), 1 < (y t).r ∧ 0 < (y t).v := by
    intro t ht
    rcases ht.1.eq_or_lt with h | h
    · rw [← h, hy0]; exact ⟨hr1, by simp [hs]⟩
    · exact hall ⟨h, ht.2.trans (min_le_right _ e)⟩
  have hb0 : 0 < min b₁ e := lt_min hb₁ he'
  have hVsq : P.Vref ^ 2 = 42828370000000 / 3389500 := by
    rw [eq_div_iff (by norm_num), ← c1, hVV, c2]
  have hOsq : P.OMEGAbar ^ 2 ≤ 64 / 10000 := by
    have htsq : P.tau ^ 2 * P.Vref ^ 2 = P.RP ^ 2 := by rw [← mul_pow, hTV]
    rw [hVsq, c1] at htsq
    have : P.tau ^ 2 = 3389500 ^ 2 / (42828370000000 / 3389500) := by
      rw [eq_div_iff (by norm_num), htsq]
    rw [hO, mul_pow, this, c5]
    norm_num
  have hO1 : |P.OMEGAbar| ≤ 8 / 100 := by
    refine abs_le_of_sq_le_sq ?_ (by norm_num)
    norm_num at hOsq ⊢
    exact hOsq
  have hz : zonal P = 3 * (196045 / 100000000) + 16 * (315 / 10000000) := by
    rw [zonal, c3, c4, abs_of_pos (by norm_num), abs_of_pos (by norm_num)]
  have hsr : s.r = 3439500 / 3389500 := by simp only [hs, c1]; norm_num
  have hJ : jacobi P.J2 P.J3 P.OMEGAbar s.r s.phi s.v ≤ 9 / 200 - 1 / s.r := by
    have hphi : s.phi = 0 := rfl
    have hsv : s.v = 3 / 10 := rfl
    rw [hphi, hsv]
    simp only [jacobi, potential, sin_zero, cos_zero, mul_one]
    have hp : 0 ≤ P.OMEGAbar ^ 2 * s.r ^ 2 := by positivity
    have h2 : 0 ≤ 1 / s.r * (P.J2 / s.r ^ 2 * (1 / 2)) := by rw [hsr, c3]; norm_num
    have e : 1 / s.r * (1 - P.J2 / s.r ^ 2 * ((3 * 0 ^ 2 - 1) / 2) - P.J3 / s.r ^ 3 * ((5 * 0 ^ 3 - 3 * 0) / 2))
        = 1 / s.r + 1 / s.r * (P.J2 / s.r ^ 2 * (1 / 2)) := by ring
    rw [e]
    linarith
  have hJ2 : jacobi P.J2 P.J3 P.OMEGAbar s.r s.phi s.v ≤ -(94 / 100) := by
    refine hJ.trans ?_
    rw [hsr]; norm_num
  have hsub : Suborbital P (6 / 5) (jacobi P.J2 P.J3 P.OMEGAbar s.r s.phi s.v) := by
    constructor
    · have hq : √(6 / 5 * (1 + zonal P)) ≤ 12 / 10 := by
        rw [sqrt_le_left (by norm_num), hz]
        norm_num
      have hprod : |P.OMEGAbar| * √(6 / 5 * (1 + zonal P)) ≤ 8 / 100 * (12 / 10) :=
        mul_le_mul hO1 hq (sqrt_nonneg _) (by norm_num)
      have hz' : zonal P ≤ 1 / 100 := by rw [hz]; norm_num
      linarith
    · have : P.OMEGAbar ^ 2 * (6 / 5) ^ 3 ≤ 64 / 10000 * (6 / 5) ^ 3 := mul_le_mul_of_nonneg_right hOsq (by norm_num)
      refine this.trans ?_
      rw [hz]; norm_num
  have hceil : jacobi P.J2 P.J3 P.OMEGAbar s.r s.phi s.v + (1 + zonal P) / (6 / 5) + P.OMEGAbar ^ 2 * (6 / 5) ^ 2 / 2 < 0 := by
    have : P.OMEGAbar ^ 2 * (6 / 5) ^ 2 ≤ 64 / 10000 * (6 / 5) ^ 2 := mul_le_mul_of_nonneg_right hOsq (by norm_num)
    rw [hz]
    norm_num at this ⊢
    linarith
  have key := C144_goes_up_comes_down "MARS" P hP 1000 100 0 10 0 1 atm demoCurve marsDescent (by norm_num) (by norm_num)
    (by norm_num) (fun _ => 0) y 0 (min b₁ e) (P.density atm 0) (6 / 5) hb0.le ∅ hM0 hM (flight_mono hy le_rfl (min_le_left _ _))
    (fun t ht => (hgood t ht).1.le) (fun t ht => (hgood t ht).2) (fun _ _ => by simp) (by rw [hy0, hsr]; norm_num)
    (by rw [hy0]; exact hsub) (by rw [hy0]; exact hceil)
  rw [hy0, sub_zero] at key
  refine ⟨P, atm, y, min b₁ e, _, ∅, hP, hatm, hb0, ?_, hy0, flight_mono hy le_rfl (min_le_left _ _), key.1, key.2⟩
  unfold energyShortfall
  linarith [hsub.1]

/-- Case for `C144_vertical_acceleration` and `C144_comes_down` (both used in the other theorem) and `C144_flight_ends`: a vehicle without lift that descends to
Mars from 100 km at 2.5 km/s comes down to 1 km, or meets another obstacle, within a time given by the density at the
surface. -/
example : ∃ (P : Planet) (atm : Atmosphere) (y : ℝ → FState) (b : ℝ) (S : Finset ℝ),
    Planet.init "MARS" = .ok P ∧ LoadedCubic P mars.km (fileRows mars) atm ∧
    y 0 = P.nonDimState (Vehicle.entryState P marsDescent) ∧
    SwitchedFlight (fun t s => (Vehicle.mk' 1000 100 0 10 0 1 P atm false demoCurve marsDescent).EOM s t 0) y 0 b S ∧
    ∃ τ ∈ Set.Ico 0 b, τ ≤ fallTime P 100 (P.density atm 0) (y 0) ∧ (∀ t ∈ Set.Icc 0 τ, Clear P 1000 0.01 0.01 1 (y t)) ∧
      ∀ ε > 0, ∃ t ∈ Set.Ioc τ (τ + ε), t ≤ b ∧ ¬ Clear P 1000 0.01 0.01 1 (y t) := by
  obtain ⟨P, hP⟩ := (C01_planet_names "MARS").1.mpr (by simp [Spec.bodies])
  have hF : ("MARS", mars) ∈ shippedFiles := by simp [shippedFiles]
  obtain ⟨atm, hatm⟩ := (C85_loads "MARS" mars hF P hP).1
  have hT : P.hThres = 120000 := by
    simp [Planet.init] at hP; subst hP; norm_num [Planet.withScales]
  obtain ⟨e1, e2, e3, e4, e5, e6⟩ := marsDescent_state hP
  set s := P.nonDimState (Vehicle.entryState P marsDescent) with hs
  have hcg : (0.01 : ℝ) ≤ cos s.gamma := by
    rw [e5, cos_neg]
    have h1 : cos (π / 3) ≤ cos (π / 18) :=
      cos_le_cos_of_nonneg_of_le_pi (by positivity) (by linarith [pi_pos]) (by linarith [pi_pos])
    rw [cos_pi_div_three] at h1
    norm_num at h1 ⊢
    linarith
  have hclear : Clear P 1000 0.01 0.01 1 s :=
    ⟨by rw [e1]; norm_num, e4.le, by rw [e3, cos_zero]; norm_num, hcg, Or.inl (by rw [e1, hT]; norm_num)⟩
  have hT0 : 0 ≤ P.hThres := by rw [hT]; norm_num
  have hM : ∀ h, 0 ≤ h → h ≤ P.hThres → atm.densityInt h ≤ P.density atm 0 := by
    intro h h0 h1
    have e : P.density atm h = atm.densityInt h := by rw [Planet.density, if_pos ⟨h0, h1⟩]
    rw [← e]
    rcases h0.eq_or_lt with h2 | h2
    · rw [← h2]
    · exact (C85_density_decreasing_partial "MARS" mars hF (by simp) P hP atm hatm 0 h le_rfl hT0 h2).le
  obtain ⟨y, b, S, y0, hy, h⟩ := C144_flight_ends "MARS" mars hF P hP atm hatm 1000 100 0 10 0 1 demoCurve marsDescent
    (by norm_num) (by norm_num) (by norm_num) 0 (P.density atm 0) 1000 0.01 0.01 1 (by norm_num) (by norm_num) (by norm_num)
    (by norm_num) hM (by simp) s hclear (by rw [e5]; linarith [pi_pos]) (by rw [e5]; linarith [pi_pos]) e6
  exact ⟨P, atm, y, b, S, hP, hatm, y0, hy, by rw [y0]; exact h⟩

end AMAT.Props
