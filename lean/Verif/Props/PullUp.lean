import Verif.Props.Continuation
import Verif.Props.Sampling
import Verif.Props.PropagationOutcome

/-
Property C101: without lift that points up, a vehicle that has stopped climbing does not climb again before it flies
horizontally at the local orbital speed; a vehicle with too little energy for that never climbs and is never reported as
skipped out.
-/

noncomputable section

open Real

namespace AMAT.Spec

/-- Square of the speed with respect to inertial space: length of the relative velocity plus the velocity of the
rotating frame. -/
def inertialSpeedSq (Omega r theta phi v psi gamma : ℝ) : ℝ :=
  let W := vel theta phi v psi gamma + V3.cross (spin Omega) (pos r theta phi)
  V3.dot W W

/-- Downward acceleration of gravity: the decrease of the potential with the radius. -/
def gravityDown (J2 J3 r phi : ℝ) : ℝ := -deriv (fun s => potential J2 J3 s phi) r

end AMAT.Spec

namespace AMAT.Props

open Real AMAT AMAT.Spec AMAT.Data AMAT.Spline AMAT.Lits AMAT.Piecewise

theorem inertialSpeedSq_eq (Omega r theta phi v psi gamma : ℝ) : inertialSpeedSq Omega r theta phi v psi gamma
    = v ^ 2 + 2 * v * (Omega * r * cos phi) * cos gamma * cos psi + (Omega * r * cos phi) ^ 2 := by
  have h1 := sin_sq_add_cos_sq theta
  have h2 := sin_sq_add_cos_sq phi
  have h3 := sin_sq_add_cos_sq psi
  have h4 := sin_sq_add_cos_sq gamma
  simp only [inertialSpeedSq, vel, along, horiz, up, east, north, pos, spin, V3.cross, V3.dot, V3.add_x, V3.add_y,
    V3.add_z, V3.smul_x, V3.smul_y, V3.smul_z]
  generalize sin theta = st at *; generalize cos theta = ct at *; generalize sin phi = sp at *
  generalize cos phi = cp at *; generalize sin psi = ss at *; generalize cos psi = cs at *
  generalize sin gamma = sg at *; generalize cos gamma = cg at *
  grind

theorem gravityDown_eq (J2 J3 : ℝ) {r : ℝ} (hr : r ≠ 0) (phi : ℝ) : gravityDown J2 J3 r phi
    = 1 / r ^ 2 - 3 / 2 * J2 / r ^ 4 * (3 * sin phi ^ 2 - 1) - 2 * J3 / r ^ 5 * (5 * sin phi ^ 3 - 3 * sin phi) := by
  have hi : HasDerivAt (fun s : ℝ => s⁻¹) (-(r ^ 2)⁻¹) r := hasDerivAt_inv hr
  have h := (hi.sub (((hi.pow 3).const_mul J2).mul_const ((3 * sin phi ^ 2 - 1) / 2))).sub
    (((hi.pow 4).const_mul J3).mul_const ((5 * sin phi ^ 3 - 3 * sin phi) / 2))
  have h' := h.congr_of_eventuallyEq (f₁ := fun s => potential J2 J3 s phi) (by
    filter_upwards [isOpen_ne.mem_nhds hr] with s hs
    have hs' : s ≠ 0 := hs
    simp only [potential, Pi.sub_apply, Pi.pow_apply]
    field_simp)
  rw [gravityDown, h'.deriv]
  norm_num
  field_simp
  ring

theorem grbar_eq (V : Vehicle) {r : ℝ} (hr : r ≠ 0) (phi : ℝ) :
    V.grbar r phi = -gravityDown V.planet.J2 V.planet.J3 r phi := by
  rw [gravityDown_eq _ _ hr]
  simp only [Vehicle.grbar, l10, l15, l20, l30, l50]
  ring

/-- Rate of the flight-path angle without lift. -/
def liftFreeRate (V : Vehicle) (s : FState) : ℝ :=
  V.gnbar s.r s.phi s.gamma s.psi / s.v + (s.v / s.r) * cos s.gamma + V.cfgammabar s.r s.phi s.v s.psi s.gamma
    + V.cogammabar s.r s.phi s.v s.psi s.gamma

theorem gamma_rate (V : Vehicle) (s : FState) (t delta : ℝ) :
    (V.EOM s t delta).gamma = V.a_nbar s.r s.theta s.phi s.v delta / s.v + liftFreeRate V s := by
  simp only [Vehicle.EOM, liftFreeRate]
  ring

/-- In horizontal flight the lift-free rate is the excess of the inertial speed over the local orbital speed. -/
theorem horizontal_rate (V : Vehicle) (s : FState) (hr : 0 < s.r) (hv : 0 < s.v) (hg : s.gamma = 0) :
    liftFreeRate V s * (s.v * s.r)
      = inertialSpeedSq V.planet.OMEGAbar s.r s.theta s.phi s.v s.psi s.gamma
        - s.r * gravityDown V.planet.J2 V.planet.J3 s.r s.phi := by
  rw [inertialSpeedSq_eq]
  simp only [liftFreeRate, Vehicle.gnbar, grbar_eq V hr.ne', Vehicle.cfgammabar, Vehicle.cogammabar, hg, cos_zero,
    sin_zero, l10, l20, Vehicle.gthetabar]
  generalize gravityDown V.planet.J2 V.planet.J3 s.r s.phi = g
  field_simp
  ring

theorem liftFreeRate_continuous (V : Vehicle) (s : FState) (hr : 0 < s.r) (hv : 0 < s.v) :
    ContinuousAt (fun x : R7 => liftFreeRate V (FState.ofR7 x)) s.toR7 := by
  have h1 : (FState.ofR7 s.toR7).r ≠ 0 := hr.ne'
  have h2 : (FState.ofR7 s.toR7).v ≠ 0 := hv.ne'
  simp only [liftFreeRate, Vehicle.gnbar, Vehicle.grbar, Vehicle.gphibar, Vehicle.cfgammabar, Vehicle.cogammabar,
    Vehicle.gthetabar, FState.ofR7, FState.toR7] at *
  fun_prop (disch := first | assumption | exact pow_ne_zero _ h1)

/-- A continuous function that is not positive at first and positive later rises above zero at some first time. -/
theorem first_rise (g : ℝ → ℝ) {a b : ℝ} (hab : a ≤ b) (hc : ContinuousOn g (Set.Icc a b)) (ha : g a ≤ 0) (hb : 0 < g b) :
    ∃ t ∈ Set.Ico a b, g t = 0 ∧ (∀ s ∈ Set.Icc a t, g s ≤ 0) ∧ ∀ ε > 0, ∃ s ∈ Set.Ioo t (t + ε), s ≤ b ∧ 0 < g s := by
  set A := {s | s ∈ Set.Icc a b ∧ 0 < g s} with hA
  have hne : A.Nonempty := ⟨b, ⟨hab, le_rfl⟩, hb⟩
  have hbd : BddBelow A := ⟨a, fun s hs => hs.1.1⟩
  set t := sInf A with ht
  have hat : a ≤ t := le_csInf hne fun s hs => hs.1.1
  have htb : t ≤ b := csInf_le hbd ⟨⟨hab, le_rfl⟩, hb⟩
  have hbefore : ∀ s ∈ Set.Ico a t, g s ≤ 0 := by
    intro s hs
    by_contra hn
    have := csInf_le hbd (show s ∈ A from ⟨⟨hs.1, hs.2.le.trans htb⟩, not_le.mp hn⟩)
    exact absurd hs.2 (not_lt.mpr this)
  have hle : g t ≤ 0 := by
    rcases hat.eq_or_lt with h | h
    · rw [← h]; exact ha
    · by_contra hn
      have hcl : ContinuousWithinAt g (Set.Ico a t) t :=
        (hc t ⟨hat, htb⟩).mono fun s hs => ⟨hs.1, hs.2.le.trans htb⟩
      have hmem : t ∈ closure (Set.Ico a t) := by rw [closure_Ico h.ne]; exact ⟨hat, le_rfl⟩
      have : (nhdsWithin t (Set.Ico a t)).NeBot := mem_closure_iff_nhdsWithin_neBot.mp hmem
      have := le_of_tendsto hcl (eventually_nhdsWithin_of_forall hbefore)
      exact hn this
  have htb' : t < b := lt_of_le_of_ne htb fun h => by rw [h] at hle; linarith
  have hnear : ∀ ε > 0, ∃ s ∈ Set.Ioo t (t + ε), s ≤ b ∧ 0 < g s := by
    intro ε hε
    obtain ⟨s, hs, hlt⟩ := exists_lt_of_csInf_lt hne (show sInf A < t + ε by linarith)
    have hts : t ≤ s := csInf_le hbd hs
    refine ⟨s, ⟨lt_of_le_of_ne hts fun h => ?_, hlt⟩, hs.1.2, hs.2⟩
    rw [h] at hle
    linarith [hs.2]
  refine ⟨t, ⟨hat, htb'⟩, le_antisymm hle ?_, fun s hs => ?_, hnear⟩
  · have hcr : ContinuousWithinAt g A t := (hc t ⟨hat, htb⟩).mono fun s hs => hs.1
    have hmem : t ∈ closure A := csInf_mem_closure hne hbd
    have : (nhdsWithin t A).NeBot := mem_closure_iff_nhdsWithin_neBot.mp hmem
    exact ge_of_tendsto hcr (eventually_nhdsWithin_of_forall fun s hs => hs.2.le)
  · rcases hs.2.eq_or_lt with h | h
    · rw [h]; exact hle
    · exact hbefore s ⟨hs.1, h⟩

/-- C101: a vehicle whose lift does not point up (no lift, or lift down) and that is not climbing at time `a` but is at time
`b` flew horizontally in between, after a time without climbing, with at least the orbital speed of that place with
respect to inertial space. -/
theorem C101_pull_up (V : Vehicle) (delta : ℝ → ℝ) (y : ℝ → FState) (a b : ℝ) (S : Finset ℝ) (hab : a ≤ b)
    (hy : SwitchedFlight (fun t s => V.EOM s t (delta t)) y a b S)
    (hr : ∀ t ∈ Set.Icc a b, 0 < (y t).r) (hv : ∀ t ∈ Set.Icc a b, 0 < (y t).v)
    (hL : ∀ t ∈ Set.Icc a b, V.a_nbar (y t).r (y t).theta (y t).phi (y t).v (delta t) ≤ 0)
    (ha : (y a).gamma ≤ 0) (hb : 0 < (y b).gamma) :
    ∃ t ∈ Set.Ico a b, (y t).gamma = 0 ∧ (∀ s ∈ Set.Icc a t, (y s).gamma ≤ 0) ∧
      (y t).r * gravityDown V.planet.J2 V.planet.J3 (y t).r (y t).phi
        ≤ inertialSpeedSq V.planet.OMEGAbar (y t).r (y t).theta (y t).phi (y t).v (y t).psi (y t).gamma := by
  obtain ⟨t, ht, h0, hbefore, hnear⟩ := first_rise (fun t => (y t).gamma) hab hy.gamma ha hb
  have ht' : t ∈ Set.Icc a b := Set.Ico_subset_Icc_self ht
  refine ⟨t, ht, h0, hbefore, ?_⟩
  by_contra hn
  have hrate : liftFreeRate V (y t) < 0 := by
    have h1 := horizontal_rate V (y t) (hr t ht') (hv t ht') h0
    have h2 := mul_pos (hv t ht') (hr t ht')
    by_contra hn'
    have := mul_nonneg (not_lt.mp hn') h2.le
    linarith [not_le.mp hn]
  have hyt := flight_mono hy ht.1 le_rfl
  have hev : ∀ᶠ s in nhdsWithin t (Set.Ioi t), liftFreeRate V (y s) < 0 :=
    (((liftFreeRate_continuous V (y t) (hr t ht') (hv t ht')).tendsto).comp (flight_right hyt ht.2)).eventually
      (gt_mem_nhds (show liftFreeRate V (FState.ofR7 (y t).toR7) < 0 from hrate))
  obtain ⟨e, he, hall⟩ := mem_nhdsGT_iff_exists_Ioc_subset.mp hev
  have he' : t < e := he
  obtain ⟨s, hs, hsb, hpos⟩ := hnear (e - t) (by linarith)
  have hse : s < e := by linarith [hs.2]
  have hanti := antitoneOn_off (fun t => (y t).gamma) S t s
    (hyt.gamma.mono (Set.Icc_subset_Icc_right hsb)) fun q hq hS => by
      have hq' : q ∈ Set.Icc a b := ⟨ht.1.trans hq.1.le, hq.2.le.trans hsb⟩
      refine ⟨_, ?_, (hy.solves q ⟨ht.1.trans_lt hq.1, hq.2.trans_le hsb⟩ hS).gamma⟩
      rw [gamma_rate]
      have h1 : liftFreeRate V (y q) < 0 := hall ⟨hq.1, (hq.2.trans hse).le⟩
      have h2 := div_nonpos_of_nonpos_of_nonneg (hL q hq') (hv q hq').le
      linarith
  have := hanti ⟨le_rfl, hs.1.le⟩ ⟨hs.1.le, le_rfl⟩ hs.1.le
  simp only [h0] at this
  exact absurd hpos (not_lt.mpr this)

/-- The lift of a vehicle with `L/D·cos(bank) ≤ 0` does not point up. -/
theorem lift_not_up (name : String) (P : Planet)
    (hP : Planet.init name = .ok P) (m beta LD A alpha RN : ℝ) (atm : Atmosphere) (u : Bool) (f : ℝ → ℝ)
    (st : InitState) (hm : 0 < m) (hb : 0 < beta) (hA : 0 < A)
    (hatm : ∀ h, 0 ≤ h → h ≤ P.hThres → 0 ≤ atm.densityInt h) (r theta phi v delta : ℝ) (hd : LD * cos delta ≤ 0) :
    (Vehicle.mk' m beta LD A alpha RN P atm u f st).a_nbar r theta phi v delta ≤ 0 := by
  obtain ⟨-, h2, -⟩ := C15_dimensionless_aero name P hP m beta LD A alpha RN atm u f st hm r theta phi v delta
  obtain ⟨_, hR, _, _, _, _, _, _, hV, _⟩ := C01_planet_consistent name P hP
  rw [h2]
  have h1 := (C03_density_nonneg name P hP atm hatm (r * P.RP) theta phi).1
  have e : (Vehicle.mk' m beta LD A alpha RN P atm u f st).a_n (r * P.RP) theta phi (v * P.Vref) delta
      = 1 / 2 * P.rho atm (r * P.RP) theta phi * (v * P.Vref) ^ 2 * A * (m / (beta * A)) / m * (LD * cos delta) := by
    simp only [Vehicle.a_n, Vehicle.L, Vehicle.mk', l00, l05]
    ring
  rw [e]
  refine mul_nonpos_of_nonneg_of_nonpos (by positivity) (mul_nonpos_of_nonneg_of_nonpos ?_ hd)
  have := mul_pos hb hA
  positivity

/-- Effect of the zonal harmonics on the weight, at most. -/
def zonal (P : Planet) : ℝ := 3 * |P.J2| + 16 * |P.J3|

/-- Energy too low for orbital speed anywhere between the surface and the radius `r0`: below that of a circular orbit at the
surface by the share of rotation and zonal harmonics; the planet rotates slower than it can be orbited at `r0`. -/
def Suborbital (P : Planet) (r0 J : ℝ) : Prop :=
  J < -(1 / 2) - zonal P - |P.OMEGAbar| * √(r0 * (1 + zonal P)) ∧ P.OMEGAbar ^ 2 * r0 ^ 3 ≤ 1 - zonal P

theorem weight_bounds (P : Planet) {r : ℝ} (hr : 1 ≤ r) (phi : ℝ) :
    (1 - zonal P) / r ≤ r * gravityDown P.J2 P.J3 r phi ∧ r * gravityDown P.J2 P.J3 r phi ≤ (1 + zonal P) / r := by
  have h0 : 0 < r := by linarith
  rw [gravityDown_eq _ _ h0.ne']
  have hs := sin_sq_le_one phi
  have hs1 : |sin phi| ≤ 1 := abs_sin_le_one phi
  have a1 : |3 / 2 * P.J2 / r ^ 2 * (3 * sin phi ^ 2 - 1)| ≤ 3 * |P.J2| := by
    rw [abs_mul, abs_div, abs_of_pos (pow_pos h0 2), abs_mul, abs_of_pos (by norm_num : (0:ℝ) < 3 / 2)]
    have e1 : 3 / 2 * |P.J2| / r ^ 2 ≤ 3 / 2 * |P.J2| := div_le_self (by positivity) (one_le_pow₀ hr)
    have e2 : |3 * sin phi ^ 2 - 1| ≤ 2 := by
      rw [abs_le]; constructor <;> nlinarith [sq_nonneg (sin phi)]
    calc _ ≤ 3 / 2 * |P.J2| * 2 := mul_le_mul e1 e2 (abs_nonneg _) (by positivity)
      _ = _ := by ring
  have a2 : |2 * P.J3 / r ^ 3 * (5 * sin phi ^ 3 - 3 * sin phi)| ≤ 16 * |P.J3| := by
    rw [abs_mul, abs_div, abs_of_pos (pow_pos h0 3), abs_mul, abs_of_pos (by norm_num : (0:ℝ) < 2)]
    have e1 : 2 * |P.J3| / r ^ 3 ≤ 2 * |P.J3| := div_le_self (by positivity) (one_le_pow₀ hr)
    have e2 : |5 * sin phi ^ 3 - 3 * sin phi| ≤ 8 := by
      have b1 : |sin phi ^ 3| ≤ 1 := by rw [abs_pow]; exact pow_le_one₀ (abs_nonneg _) hs1
      rw [abs_le] at b1 hs1 ⊢
      constructor <;> linarith [b1.1, b1.2, hs1.1, hs1.2]
    calc _ ≤ 2 * |P.J3| * 8 := mul_le_mul e1 e2 (abs_nonneg _) (by positivity)
      _ = _ := by ring
  rw [abs_le] at a1 a2
  have e : r * (1 / r ^ 2 - 3 / 2 * P.J2 / r ^ 4 * (3 * sin phi ^ 2 - 1)
      - 2 * P.J3 / r ^ 5 * (5 * sin phi ^ 3 - 3 * sin phi))
      = (1 - 3 / 2 * P.J2 / r ^ 2 * (3 * sin phi ^ 2 - 1) - 2 * P.J3 / r ^ 3 * (5 * sin phi ^ 3 - 3 * sin phi)) / r := by
    field_simp
  rw [e]
  unfold zonal
  constructor
  · exact div_le_div_of_nonneg_right (by linarith [a1.2, a2.2]) h0.le
  · exact div_le_div_of_nonneg_right (by linarith [a1.1, a2.1]) h0.le

/-- A state of suborbital energy is slower than the local orbital speed. -/
theorem suborbital_slow (P : Planet) {r0 J : ℝ} (hs : Suborbital P r0 J) {r : ℝ} (hr : 1 ≤ r) (hr0 : r ≤ r0)
    (theta phi v psi : ℝ) (hv : 0 < v) (hJ : jacobi P.J2 P.J3 P.OMEGAbar r phi v ≤ J) :
    inertialSpeedSq P.OMEGAbar r theta phi v psi 0 < r * gravityDown P.J2 P.J3 r phi := by
  have h0 : 0 < r := by linarith
  have hz : 0 ≤ zonal P := by unfold zonal; positivity
  obtain ⟨w1, w2⟩ := weight_bounds P hr phi
  set C := r * gravityDown P.J2 P.J3 r phi with hC
  obtain ⟨s1, s2⟩ := hs
  set w := |P.OMEGAbar| * r with hw
  have hw0 : 0 ≤ w := mul_nonneg (abs_nonneg _) h0.le
  have hr3 : r ^ 3 ≤ r0 ^ 3 := pow_le_pow_left₀ h0.le hr0 3
  have hwC : w ^ 2 ≤ C := by
    refine le_trans ?_ w1
    rw [le_div_iff₀ h0, hw, mul_pow, sq_abs]
    have := mul_le_mul_of_nonneg_left hr3 (sq_nonneg P.OMEGAbar)
    calc P.OMEGAbar ^ 2 * r ^ 2 * r = P.OMEGAbar ^ 2 * r ^ 3 := by ring
      _ ≤ _ := by linarith
  have hC0 : 0 ≤ C := (sq_nonneg w).trans hwC
  have hwq : w ≤ √C := le_sqrt_of_sq_le hwC
  -- the orbital speed exceeds the rotation by more than the energy allows
  have hU : potential P.J2 P.J3 r phi ≤ (1 + |P.J2| + 4 * |P.J3|) / r := by
    have hpot : potential P.J2 P.J3 r phi = (potential P.J2 P.J3 r phi * r) / r := by field_simp
    rw [hpot]
    refine div_le_div_of_nonneg_right ?_ h0.le
    have hb := potential_scaled P.J2 P.J3 hr phi
    exact hb
  have hwS : w * √C ≤ |P.OMEGAbar| * √(r0 * (1 + zonal P)) := by
    rw [hw, mul_assoc]
    refine mul_le_mul_of_nonneg_left ?_ (abs_nonneg _)
    have e : r * √C = √(r ^ 2 * C) := by rw [sqrt_mul (sq_nonneg r), sqrt_sq h0.le]
    rw [e]
    refine sqrt_le_sqrt ?_
    have := mul_le_mul_of_nonneg_left w2 (sq_nonneg r)
    have e2 : r ^ 2 * ((1 + zonal P) / r) = r * (1 + zonal P) := by field_simp
    rw [e2] at this
    exact this.trans (mul_le_mul_of_nonneg_right hr0 (by linarith))
  have hlow : -(1 / 2) - zonal P ≤ C / 2 - potential P.J2 P.J3 r phi := by
    have e : (1 - zonal P) / r / 2 - (1 + |P.J2| + 4 * |P.J3|) / r
        = -((1 / 2 + zonal P / 2 + |P.J2| + 4 * |P.J3|) / r) := by ring
    have h1 : (1 / 2 + zonal P / 2 + |P.J2| + 4 * |P.J3|) / r ≤ 1 / 2 + zonal P / 2 + |P.J2| + 4 * |P.J3| :=
      div_le_self (by positivity) hr
    have h2 : zonal P / 2 + |P.J2| + 4 * |P.J3| ≤ zonal P := by
      have := abs_nonneg P.J2; have := abs_nonneg P.J3
      unfold zonal; linarith
    linarith
  rw [inertialSpeedSq_eq, cos_zero, mul_one]
  by_contra hn
  have hcp : |P.OMEGAbar * r * cos phi| ≤ w := by
    rw [abs_mul, abs_mul, abs_of_pos h0, hw]
    exact mul_le_of_le_one_right hw0 (abs_cos_le_one phi)
  set q := P.OMEGAbar * r * cos phi with hq
  have hqs : q ^ 2 ≤ w ^ 2 := by rw [← sq_abs q]; exact pow_le_pow_left₀ (abs_nonneg _) hcp 2
  have hJe : jacobi P.J2 P.J3 P.OMEGAbar r phi v = v ^ 2 / 2 - potential P.J2 P.J3 r phi - q ^ 2 / 2 := by
    rw [hq]; unfold jacobi; ring
  have hcross : 2 * v * q * cos psi ≤ 2 * v * |q| := by
    have : q * cos psi ≤ |q| := by
      refine (le_abs_self _).trans ?_
      rw [abs_mul]
      exact mul_le_of_le_one_right (abs_nonneg _) (abs_cos_le_one psi)
    have := mul_le_mul_of_nonneg_left this (by positivity : 0 ≤ 2 * v)
    linarith
  have hsum : C ≤ (v + |q|) ^ 2 := by
    have : (v + |q|) ^ 2 = v ^ 2 + 2 * v * |q| + q ^ 2 := by rw [add_sq, sq_abs]
    linarith [not_lt.mp hn]
  have hsq : √C ≤ v + |q| := by
    rw [sqrt_le_left (add_nonneg hv.le (abs_nonneg _))]
    exact hsum
  have hv2 : (√C - |q|) ^ 2 ≤ v ^ 2 := pow_le_pow_left₀ (by linarith) (by linarith) 2
  have hexp : (√C - |q|) ^ 2 = C - 2 * (|q| * √C) + q ^ 2 := by
    rw [sub_sq, sq_sqrt hC0, sq_abs]; ring
  have hqC : |q| * √C ≤ w * √C := mul_le_mul_of_nonneg_right hcp (sqrt_nonneg _)
  linarith

/-- C101: a vehicle without upward lift whose energy is too low for orbital speed, once not climbing, never climbs again:
its flight-path angle stays at most zero and its altitude never increases. -/
theorem C101_suborbital_never_climbs (name : String) (P : Planet)
    (hP : Planet.init name = .ok P) (m beta LD A alpha RN : ℝ) (atm : Atmosphere) (u : Bool) (f : ℝ → ℝ)
    (st : InitState) (hm : 0 < m) (hb : 0 < beta) (hA : 0 < A) (hf : ∀ M, 0 ≤ f M) (delta : ℝ → ℝ) (y : ℝ → FState)
    (a b : ℝ) (S : Finset ℝ) (hatm : ∀ h, 0 ≤ h → h ≤ P.hThres → 0 ≤ atm.densityInt h)
    (hy : SwitchedFlight (fun t s => (Vehicle.mk' m beta LD A alpha RN P atm u f st).EOM s t (delta t)) y a b S)
    (hr : ∀ t ∈ Set.Icc a b, 1 ≤ (y t).r) (hv : ∀ t ∈ Set.Icc a b, 0 < (y t).v)
    (hd : ∀ t ∈ Set.Icc a b, LD * cos (delta t) ≤ 0) (hg : ∀ t ∈ Set.Icc a b, -π ≤ (y t).gamma)
    (ha : (y a).gamma ≤ 0)
    (hJ : Suborbital P (y a).r (jacobi P.J2 P.J3 P.OMEGAbar (y a).r (y a).phi (y a).v)) :
    (∀ t ∈ Set.Icc a b, (y t).gamma ≤ 0) ∧ AntitoneOn (fun t => (y t).r) (Set.Icc a b) := by
  have hdesc : ∀ t ∈ Set.Icc a b, (∀ s ∈ Set.Icc a t, (y s).gamma ≤ 0) →
      AntitoneOn (fun t => (y t).r) (Set.Icc a t) := by
    intro t ht hneg
    refine antitoneOn_off _ S a t (hy.r.mono (Set.Icc_subset_Icc_right ht.2)) fun q hq hS => ?_
    have hq' : q ∈ Set.Icc a b := ⟨hq.1.le, hq.2.le.trans ht.2⟩
    refine ⟨_, ?_, (hy.solves q ⟨hq.1, hq.2.trans_le ht.2⟩ hS).r⟩
    exact mul_nonpos_of_nonneg_of_nonpos (hv q hq').le
      (sin_nonpos_of_nonpos_of_neg_pi_le (hneg q ⟨hq.1.le, hq.2.le⟩) (hg q hq'))
  have hall : ∀ t ∈ Set.Icc a b, (y t).gamma ≤ 0 := by
    intro t ht
    by_contra hn
    have hsub : Set.Icc a t ⊆ Set.Icc a b := Set.Icc_subset_Icc_right ht.2
    obtain ⟨q, hq, q0, hbefore, hfast⟩ := C101_pull_up _ delta y a t S ht.1 (flight_mono hy le_rfl ht.2)
      (fun s hs => by have := hr s (hsub hs); linarith) (fun s hs => hv s (hsub hs))
      (fun s hs => lift_not_up name P hP m beta LD A alpha RN atm u f st hm hb hA hatm _ _ _ _ _ (hd s (hsub hs)))
      ha (not_le.mp hn)
    have hq' : q ∈ Set.Icc a b := ⟨hq.1, hq.2.le.trans ht.2⟩
    have hlow := hdesc q hq' hbefore ⟨le_rfl, hq.1⟩ ⟨hq.1, le_rfl⟩ hq.1
    have hen := C18_switched_never_increases name P hP m beta LD A alpha RN atm u f st hm hb hA hf delta y a b S hatm hy
      (fun s hs => by have := hr s hs; linarith) (fun s hs => (hv s hs).le) ⟨le_rfl, hq.1.trans hq'.2⟩ hq' hq.1
    have := suborbital_slow P hJ (hr q hq') hlow (y q).theta (y q).phi (y q).v (y q).psi (hv q hq') hen
    rw [q0] at hfast
    exact absurd hfast (not_le.mpr this)
  refine ⟨hall, ?_⟩
  rcases le_or_gt a b with h | h
  · exact hdesc b ⟨h, le_rfl⟩ fun s hs => hall s hs
  · rw [Set.Icc_eq_empty (not_le.mpr h)]; intro x hx; exact absurd hx (Set.notMem_empty x)

/-- C101: `propogateEntry` never reports such a vehicle as skipped out.  The samples are those of an exact flight above the
surface, or one of them lies below the surface. -/
theorem C101_suborbital_never_skips (name : String) (P : Planet)
    (hP : Planet.init name = .ok P) (m beta LD A alpha RN : ℝ) (atm : Atmosphere) (u : Bool) (f : ℝ → ℝ)
    (st : InitState) (hm : 0 < m) (hb : 0 < beta) (hA : 0 < A) (hf : ∀ M, 0 ≤ f M) (y : ℝ → FState)
    (T : ℝ) (S : Finset ℝ) (hatm : ∀ h, 0 ≤ h → h ≤ P.hThres → 0 ≤ atm.densityInt h)
    (mode : ScipyMode) (I : Integrator) (tSec dt deltaDeg : ℝ) (out : PropOut)
    (h : (Vehicle.mk' m beta LD A alpha RN P atm u f st).propogateEntry mode I tSec dt deltaDeg = .ok out)
    (hI : (∃ p ∈ samples (Vehicle.mk' m beta LD A alpha RN P atm u f st) I tSec dt deltaDeg, p.2.r < 1) ∨
      ∀ p ∈ samples (Vehicle.mk' m beta LD A alpha RN P atm u f st) I tSec dt deltaDeg,
        p.1 ∈ Set.Icc 0 T ∧ p.2 = y p.1)
    (hy : SwitchedFlight (fun t s => (Vehicle.mk' m beta LD A alpha RN P atm u f st).EOM s t (deltaDeg * π / 180)) y 0 T S)
    (hr : ∀ t ∈ Set.Icc 0 T, 1 ≤ (y t).r) (hv : ∀ t ∈ Set.Icc 0 T, 0 < (y t).v)
    (hd : LD * cos (deltaDeg * π / 180) ≤ 0) (hg : ∀ t ∈ Set.Icc 0 T, -π ≤ (y t).gamma)
    (h0 : (y 0).gamma ≤ 0) (hskip : (y 0).r * P.RP - P.RP ≤ P.hSkip)
    (hJ : Suborbital P (y 0).r (jacobi P.J2 P.J3 P.OMEGAbar (y 0).r (y 0).phi (y 0).v)) :
    out.exitflag ≠ 1 := by
  obtain ⟨_, hR, _⟩ := C01_planet_consistent name P hP
  set V := Vehicle.mk' m beta LD A alpha RN P atm u f st with hV
  have hp : V.postProcess mode (TrajArrays.ofSamples (samples V I tSec dt deltaDeg)) (deltaDeg * π / 180.0) 0
    = .ok out := h
  obtain ⟨idx, flag, qc, qr, heat, hc, hq, hq2, hh, rfl⟩ := postProcess_inv hp
  have hrr : (V.planet.dimensionalizeArr (TrajArrays.ofSamples (samples V I tSec dt deltaDeg))).r
      = (samples V I tSec dt deltaDeg).map (fun p => p.2.r * P.RP) := by
    simp [Planet.dimensionalizeArr, TrajArrays.ofSamples, Function.comp_def, hV, Vehicle.mk']
  have hne := classify_nonempty hc
  obtain ⟨idx', flag', h1, -, -, h2, -⟩ := C22_classification name P hP _ hne
  have hc' : P.classifyTrajectory (V.planet.dimensionalizeArr (TrajArrays.ofSamples (samples V I tSec dt deltaDeg))).r
    = .ok (idx, flag) := hc
  rw [hc'] at h1
  obtain ⟨rfl, rfl⟩ : idx = idx' ∧ flag = flag' := by simpa using h1
  intro hflag
  obtain ⟨g1, x, hx, hx2⟩ := h2.mp hflag
  rw [hrr] at g1 hx
  rcases hI with ⟨p, hp, hlt⟩ | hI
  · have := g1 _ (List.mem_map.mpr ⟨p, hp, rfl⟩)
    have := mul_lt_mul_of_pos_right hlt hR
    linarith
  · obtain ⟨p, hp, rfl⟩ := List.mem_map.mp hx
    obtain ⟨ht, e⟩ := hI p hp
    have hanti := (C101_suborbital_never_climbs name P hP m beta LD A alpha RN atm u f st hm hb hA hf
      (fun _ => deltaDeg * π / 180) y 0 T S hatm hy hr hv (fun _ _ => hd) hg h0 hJ).2
      ⟨le_rfl, ht.1.trans ht.2⟩ ht ht.1
    have := mul_le_mul_of_nonneg_right hanti hR.le
    rw [e] at hx2
    simp only at this hx2
    linarith

/-! ### Cases -/

/-- A vehicle 100 km above Mars that descends at 2.5 km/s and ten degrees. -/
def marsDescent : InitState := ⟨100, 0, 0, 2.5, 0, -10, 0, 0⟩

theorem marsDescent_state {P : Planet} (hP : Planet.init "MARS" = .ok P) :
    let s := P.nonDimState (Vehicle.entryState P marsDescent)
    s.r * P.RP - P.RP = 100000 ∧ 1 < s.r ∧ s.phi = 0 ∧ 0.01 < s.v ∧ s.gamma = -(π / 18) ∧
      Suborbital P s.r (jacobi P.J2 P.J3 P.OMEGAbar s.r s.phi s.v) := by
  obtain ⟨_, hR, hG, _, _, _, _, _, hV, ht, hVV, hTV, hO, _⟩ := C01_planet_consistent "MARS" P hP
  have c : P.RP = 3389500 ∧ P.GM = 42828370000000 ∧ P.J2 = 196045 / 100000000 ∧ P.J3 = 315 / 10000000 ∧
      P.OMEGA = 7088253 / 100000000000 := by
    simp [Planet.init] at hP
    subst hP
    norm_num [Planet.withScales]
  obtain ⟨c1, c2, c3, c4, c5⟩ := c
  intro s
  have e1 : s.r = 3489500 / 3389500 := by
    simp only [s, Planet.nonDimState, Vehicle.entryState, Planet.computeR, marsDescent, c1]; norm_num
  have e2 : s.phi = 0 := by simp [s, Planet.nonDimState, Vehicle.entryState, marsDescent]
  have e3 : s.v = 2500 / P.Vref := by
    simp only [s, Planet.nonDimState, Vehicle.entryState, marsDescent]; norm_num
  have e4 : s.gamma = -(π / 18) := by
    simp only [s, Planet.nonDimState, Vehicle.entryState, marsDescent]
    have : (180.0 : ℝ) = 180 := by norm_num
    rw [this]; ring
  have hVsq : P.Vref ^ 2 = 42828370000000 / 3389500 := by
    rw [eq_div_iff (by norm_num), ← c1, hVV, c2]
  have hVlt : P.Vref < 10000 := by
    by_contra hn
    have := pow_le_pow_left₀ (by norm_num) (not_lt.mp hn) 2
    rw [hVsq] at this
    norm_num at this
  have hv2 : s.v ^ 2 = 6250000 * 3389500 / 42828370000000 := by
    rw [e3, div_pow, hVsq]; norm_num
  have hOsq : P.OMEGAbar ^ 2 ≤ 64 / 10000 := by
    have htsq : P.tau ^ 2 * P.Vref ^ 2 = P.RP ^ 2 := by rw [← mul_pow, hTV]
    rw [hVsq, c1] at htsq
    have : P.tau ^ 2 = 3389500 ^ 2 / (42828370000000 / 3389500) := by
      rw [eq_div_iff (by norm_num), htsq]
    rw [hO, mul_pow, this, c5]
    norm_num
  have hO1 : |P.OMEGAbar| ≤ 8 / 100 := by
    refine abs_le_of_sq_le_sq ?_ (by norm_num)
    norm_num at hOsq ⊢
    exact hOsq
  have hz : zonal P = 3 * (196045 / 100000000) + 16 * (315 / 10000000) := by
    rw [zonal, c3, c4, abs_of_pos (by norm_num), abs_of_pos (by norm_num)]
  refine ⟨by rw [e1, c1]; norm_num, by rw [e1]; norm_num, e2, ?_, e4, ?_, ?_⟩
  · rw [e3, lt_div_iff₀ hV]
    norm_num
    linarith
  · have hq : √(s.r * (1 + zonal P)) ≤ 11 / 10 := by
      rw [sqrt_le_left (by norm_num), e1, hz]
      norm_num
    have hprod : |P.OMEGAbar| * √(s.r * (1 + zonal P)) ≤ 8 / 100 * (11 / 10) :=
      mul_le_mul hO1 hq (sqrt_nonneg _) (by norm_num)
    have hJ : jacobi P.J2 P.J3 P.OMEGAbar s.r s.phi s.v ≤ s.v ^ 2 / 2 - 1 / s.r := by
      rw [e2]
      simp only [jacobi, potential, sin_zero, cos_zero, mul_one]
      have hp : 0 ≤ P.OMEGAbar ^ 2 * s.r ^ 2 := by positivity
      have h2 : 0 ≤ 1 / s.r * (P.J2 / s.r ^ 2 * (1 / 2)) := by rw [e1, c3]; norm_num
      have e : 1 / s.r * (1 - P.J2 / s.r ^ 2 * ((3 * 0 ^ 2 - 1) / 2) - P.J3 / s.r ^ 3 * ((5 * 0 ^ 3 - 3 * 0) / 2))
          = 1 / s.r + 1 / s.r * (P.J2 / s.r ^ 2 * (1 / 2)) := by ring
      rw [e]
      linarith
    refine lt_of_le_of_lt hJ ?_
    rw [hv2, hz] at *
    rw [e1] at *
    norm_num at *
    linarith
  · rw [hz, e1]
    have : P.OMEGAbar ^ 2 * (3489500 / 3389500) ^ 3 ≤ 64 / 10000 * (3489500 / 3389500) ^ 3 :=
      mul_le_mul_of_nonneg_right hOsq (by norm_num)
    refine this.trans ?_
    norm_num

/-- Case for `C101_pull_up` (used in both other theorems), `C101_suborbital_never_climbs` and
`C101_suborbital_never_skips`: a vehicle without lift that descends to Mars at 2.5 km/s flies for some time and only goes
down; propagated exactly, in two samples, it is not reported as skipped out. -/
example : ∃ (P : Planet) (atm : Atmosphere) (y : ℝ → FState) (b : ℝ) (S : Finset ℝ) (I : Integrator) (dt : ℝ) (out : PropOut),
    Planet.init "MARS" = .ok P ∧ 0 < b ∧ 0 < dt ∧
    y 0 = P.nonDimState (Vehicle.entryState P marsDescent) ∧
    SwitchedFlight (fun t s => (Vehicle.mk' 1000 100 0 10 0 1 P atm true demoCurve marsDescent).EOM s t 0) y 0 b S ∧
    AntitoneOn (fun t => (y t).r) (Set.Icc 0 b) ∧
    samples (Vehicle.mk' 1000 100 0 10 0 1 P atm true demoCurve marsDescent) I dt dt 0
      = [(0, y 0), (dt / P.tau, y (dt / P.tau))] ∧ dt / P.tau ≤ b ∧
    (Vehicle.mk' 1000 100 0 10 0 1 P atm true demoCurve marsDescent).propogateEntry .strict I dt dt 0 = .ok out ∧
    out.exitflag ≠ 1 := by
  obtain ⟨P, hP⟩ := (C01_planet_names "MARS").1.mpr (by simp [Spec.bodies])
  have hF : ("MARS", mars) ∈ shippedFiles := by simp [shippedFiles]
  obtain ⟨atm, hatm⟩ := (C85_loads "MARS" mars hF P hP).1
  have hT : P.hThres = 120000 ∧ P.hSkip = 120000 ∧ P.hTrap = 10000 := by
    simp [Planet.init] at hP; subst hP; norm_num [Planet.withScales]
  have htau : 0 < P.tau := (C01_planet_consistent "MARS" P hP).2.2.2.2.2.2.2.2.2.1
  have hR : 0 < P.RP := (C01_planet_consistent "MARS" P hP).2.1
  obtain ⟨e1, e2, e3, e4, e5, e6⟩ := marsDescent_state hP
  set s := P.nonDimState (Vehicle.entryState P marsDescent) with hs
  have hdens : ∀ h, 0 ≤ h → h ≤ P.hThres → 0 ≤ atm.densityInt h := by
    intro z hz0 hz1
    have := (C85_density_positive "MARS" mars hF P hP atm hatm z).mpr hz1
    rw [Planet.density, if_pos ⟨hz0, hz1⟩] at this
    exact this.le
  have hcg : (0.01 : ℝ) ≤ cos s.gamma := by
    rw [e5, cos_neg]
    have h1 : cos (π / 3) ≤ cos (π / 18) :=
      cos_le_cos_of_nonneg_of_le_pi (by positivity) (by linarith [pi_pos]) (by linarith [pi_pos])
    rw [cos_pi_div_three] at h1
    norm_num at h1 ⊢
    linarith
  have hclear : Clear P 1000 0.01 0.01 1 s :=
    ⟨by rw [e1]; norm_num, e4.le, by rw [e3, cos_zero]; norm_num, hcg, Or.inl (by rw [e1, hT.1]; norm_num)⟩
  obtain ⟨y, b, S, hb0, -, y0, hy, -⟩ := C100_flight_ends_at_obstacle "MARS" mars hF P hP atm hatm 1000 100 0 10 0 1 true
    demoCurve marsDescent (by norm_num) (by norm_num) (by norm_num) (fun _ => demoCurve_smooth)
    (fun M => (demoCurve_pos M).le) 0 1 1000 0.01 0.01 1 (by positivity) (by norm_num) (by norm_num)
    (by norm_num) (by norm_num) _ hclear
  -- a short time in which the vehicle stays above 10 km and moving
  have hev : ∀ᶠ t in nhdsWithin 0 (Set.Ioi 0), (1 < (y t).r ∧ P.hTrap < (y t).r * P.RP - P.RP) ∧ 0 < (y t).v ∧
      -π < (y t).gamma := by
    have hlim := flight_right hy hb0
    rw [y0] at hlim
    have k1 : Continuous fun x : R7 => x.1 := by fun_prop
    have k1' : Continuous fun x : R7 => x.1 * P.RP - P.RP := by fun_prop
    have k2 : Continuous fun x : R7 => x.2.2.2.1 := by fun_prop
    have k3 : Continuous fun x : R7 => x.2.2.2.2.2.1 := by fun_prop
    refine (((k1.tendsto s.toR7).comp hlim).eventually (lt_mem_nhds (show 1 < s.r from e2))).and ?_ |>.and
      ((((k2.tendsto s.toR7).comp hlim).eventually (lt_mem_nhds (show 0 < s.v by norm_num at e4; linarith))).and
        (((k3.tendsto s.toR7).comp hlim).eventually (lt_mem_nhds (show -π < s.gamma by rw [e5]; linarith [pi_pos]))))
    exact ((k1'.tendsto s.toR7).comp hlim).eventually (lt_mem_nhds
      (show P.hTrap < s.r * P.RP - P.RP by rw [e1, hT.2.2]; norm_num))
  obtain ⟨e, he, hall⟩ := mem_nhdsGT_iff_exists_Ioc_subset.mp hev
  have he' : (0:ℝ) < e := he
  set c := min b e with hc
  have hc0 : 0 < c := lt_min hb0 he'
  have hyc := flight_mono hy le_rfl (min_le_left b e)
  have hgood : ∀ t ∈ Set.Icc 0 c, (1 < (y t).r ∧ P.hTrap < (y t).r * P.RP - P.RP) ∧ 0 < (y t).v ∧ -π < (y t).gamma := by
    intro t ht
    rcases ht.1.eq_or_lt with h | h
    · rw [← h, y0]
      exact ⟨⟨e2, by rw [e1, hT.2.2]; norm_num⟩, by norm_num at e4; linarith, by rw [e5]; linarith [pi_pos]⟩
    · exact hall ⟨h, ht.2.trans (min_le_right b e)⟩
  have hg0 : (y 0).gamma ≤ 0 := by rw [y0, e5]; linarith [pi_pos]
  have hJ : Suborbital P (y 0).r (jacobi P.J2 P.J3 P.OMEGAbar (y 0).r (y 0).phi (y 0).v) := by rw [y0]; exact e6
  have hanti := (C101_suborbital_never_climbs "MARS" P hP 1000 100 0 10 0 1 atm true demoCurve marsDescent (by norm_num)
    (by norm_num) (by norm_num) (fun M => (demoCurve_pos M).le) (fun _ => 0) y 0 c S hdens hyc
    (fun t ht => (hgood t ht).1.1.le) (fun t ht => (hgood t ht).2.1) (fun _ _ => by simp)
    (fun t ht => (hgood t ht).2.2.le) hg0 hJ).2
  set dt := c * P.tau with hdt
  have hdt0 : 0 < dt := mul_pos hc0 htau
  have hdc : dt / P.tau = c := by rw [hdt]; field_simp
  set I : Integrator := fun _ _ grid => grid.map fun t => (t, y t) with hI
  have hsam : samples (Vehicle.mk' 1000 100 0 10 0 1 P atm true demoCurve marsDescent) I dt dt 0
      = [(0, y 0), (c, y c)] := by
    have hgrid : Vehicle.tGrid P dt dt = [0, c] := by
      have h2 : (dt + dt) / P.tau / (dt / P.tau) = 2 := by
        rw [add_div, hdc]
        field_simp
        norm_num
      rw [Vehicle.tGrid, arange0, h2, hdc]
      have : ⌈(2:ℝ)⌉₊ = 2 := by exact_mod_cast Nat.ceil_natCast (R := ℝ) 2
      rw [this]
      simp [List.range_succ]
    change (Vehicle.tGrid P dt dt).map (fun t => (t, y t)) = _
    rw [hgrid]
    rfl
  have hret := (C24_returns_iff "MARS" (Vehicle.mk' 1000 100 0 10 0 1 P atm true demoCurve marsDescent) hP .strict I dt dt 0
    _ _ hsam).1.mpr (by
      have h0 := hgood 0 ⟨le_rfl, hc0.le⟩
      have h1 := hgood c ⟨hc0.le, le_rfl⟩
      have hle := hanti ⟨le_rfl, hc0.le⟩ ⟨hc0.le, le_rfl⟩ hc0.le
      have hle' := mul_le_mul_of_nonneg_right hle hR.le
      have ha : (y 0).r * P.RP - P.RP = 100000 := by rw [y0]; exact e1
      rintro (⟨h, -⟩ | ⟨h, -⟩ | ⟨⟨h, -⟩, -⟩)
      · change P.hSkip < (y 0).r * P.RP - P.RP at h
        rw [ha, hT.2.1] at h
        norm_num at h
      · change (y 0).r * P.RP - P.RP < P.hTrap at h
        exact absurd h (not_lt.mpr h0.1.2.le)
      · change P.hTrap ∈ [(y 0).r * P.RP - P.RP, (y c).r * P.RP - P.RP] at h
        simp only [List.mem_cons, List.not_mem_nil, or_false] at h
        rcases h with h | h
        · exact absurd h h0.1.2.ne
        · exact absurd h h1.1.2.ne)
  obtain ⟨out, hout⟩ := hret
  refine ⟨P, atm, y, c, S, I, dt, out, hP, hc0, hdt0, y0, hyc, hanti, by rw [hdc]; exact hsam, hdc.le, hout, ?_⟩
  refine C101_suborbital_never_skips "MARS" P hP 1000 100 0 10 0 1 atm true demoCurve marsDescent (by norm_num)
    (by norm_num) (by norm_num) (fun M => (demoCurve_pos M).le) y c S hdens .strict I dt dt 0 out hout (Or.inr ?_)
    (by simpa using hyc) (fun t ht => (hgood t ht).1.1.le) (fun t ht => (hgood t ht).2.1) (by simp)
    (fun t ht => (hgood t ht).2.2.le) hg0 ?_ hJ
  · rw [hsam]
    intro p hp
    simp only [List.mem_cons, List.not_mem_nil, or_false] at hp
    rcases hp with rfl | rfl
    · exact ⟨⟨le_rfl, hc0.le⟩, rfl⟩
    · exact ⟨⟨hc0.le, le_rfl⟩, rfl⟩
  · rw [y0, e1, hT.2.1]
    norm_num

end AMAT.Props
