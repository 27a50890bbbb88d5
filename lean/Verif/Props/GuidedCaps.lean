import Verif.Props.EnergyDefect

/-
C124: the energy bounds the speeds and altitudes recorded in a guided entry.
-/

noncomputable section

open Real

namespace AMAT.Spec

/-- Along a recorded trajectory at or above the surface, no speed exceeds that of free fall from any earlier entry. -/
def NoFasterThanFall (P : Planet) (H : Hist) : Prop :=
  ∀ (i j : ℕ) (h φ v h' φ' v' : ℝ), i ≤ j → H.h[i]? = some h → H.phi[i]? = some φ → H.v[i]? = some v →
    H.h[j]? = some h' → H.phi[j]? = some φ' → H.v[j]? = some v' → 0 ≤ h → 0 ≤ h' →
    (v' * 1000) ^ 2 ≤ fallSq P (v * 1000) (P.RP + h * 1000) (P.RP + h' * 1000)

end AMAT.Spec

namespace AMAT.Props

open Real AMAT AMAT.Spec AMAT.Lits

/-- Specification: a recorded trajectory that at some entry is below the altitude `Hkm` with less energy than at rest there, at
any latitude, is below it at all later entries. -/
def CannotClimb (P : Planet) (H : Hist) : Prop :=
  ∀ (i j : ℕ) (h φ v h' φ' v' Hkm : ℝ), i ≤ j → H.h[i]? = some h → H.phi[i]? = some φ → H.v[i]? = some v →
    H.h[j]? = some h' → H.phi[j]? = some φ' → H.v[j]? = some v' → h < Hkm →
    (∀ ψ, recordedEnergy P h φ v < recordedEnergy P Hkm ψ 0) → h' < Hkm

theorem falls_noFaster {name : String} {P : Planet} (hP : Planet.init name = .ok P) {H : Hist} (hE : EnergyFalls P H) :
    NoFasterThanFall P H := by
  obtain ⟨_, hRP, _, _, _, _, _, _, hVr, _⟩ := C01_planet_consistent name P hP
  intro i j h φ v h' φ' v' hij e1 e2 e3 f1 f2 f3 h0 h0'
  have h1 := hE i j h φ v h' φ' v' hij e1 e2 e3 f1 f2 f3
  unfold recordedEnergy at h1
  have one : ∀ x : ℝ, 0 ≤ x → 1 ≤ 1 + x * 1000 / P.RP := fun x hx => by
    have : 0 ≤ x * 1000 / P.RP := by positivity
    linarith
  have h2 := free_fall_of_energy hP (one h h0) (one h' h0') h1
  have ev : ∀ x : ℝ, x * 1000 / P.Vref * P.Vref = x * 1000 := fun x => div_mul_cancel₀ _ hVr.ne'
  have er : ∀ x : ℝ, (1 + x * 1000 / P.RP) * P.RP = P.RP + x * 1000 := fun x => by field_simp
  rwa [ev, ev, er, er] at h2

theorem guidedFlight_cannotClimb (name : String) (P : Planet) (hP : Planet.init name = .ok P) {R : FState → Prop} {x : InitState}
    {H : Hist} {tStep deltaDeg : List ℝ} {veh : ℕ → Vehicle} {y : ℝ → FState} {T : ℝ}
    (hg : GuidedFlight R 0 P x H tStep deltaDeg veh y T) (hRr : ∀ s, R s → s.r ≠ 0 ∧ 0 ≤ s.v)
    (hveh : ∀ k, (veh k).planet = P) (ha : ∀ k r theta phi v delta, (veh k).a_sbar r theta phi v delta ≤ 0) :
    CannotClimb P H := by
  obtain ⟨_, hRP, _, _, _, _, _, _, hVr, htau, _⟩ := C01_planet_consistent name P hP
  have hanti := (guidedFlight_energy name P hP hg hRr hveh ha).1
  intro i j h φ v h' φ' v' Hkm hij e1 e2 e3 f1 f2 f3 hlow hen
  obtain ⟨t, ht, t', ht', hle, -, -, ⟨a1, a2, a3⟩, b1, b2, b3⟩ :=
    guidedFlight_entries hg i j h φ v h' φ' v' hij e1 e2 e3 f1 f2 f3
  have hent : recordedEnergy P h φ v = jacobi P.J2 P.J3 P.OMEGAbar (y t).r (y t).phi (y t).v := by
    rw [a1, a2, a3]; exact recordedEnergy_sample hRP hVr _ _
  have alt : ∀ s, (samplePt P (s, y s)).h = ((y s).r * P.RP - P.RP) / 1000 := by
    intro s
    have l6 : (1e-3:ℝ) = 1 / 1000 := by norm_num
    have l7 : (1.0e-3:ℝ) = 1 / 1000 := by norm_num
    simp only [samplePt, l6, l7]
    ring
  rw [a1, alt] at hlow
  rw [b1, alt]
  -- no later point is at the altitude
  have hcross : ∀ s ∈ Set.Icc t T, (y s).r * P.RP - P.RP ≠ Hkm * 1000 := by
    intro s hs he
    have hs' : s ∈ Set.Icc 0 T := ⟨ht.1.trans hs.1, hs.2⟩
    have h1 := hanti ht hs' hs.1
    have h2 := hen ((y s).phi * 180 / π)
    have er : (y s).r = 1 + Hkm * 1000 / P.RP := by
      rw [← he]; field_simp; ring
    have ep : (y s).phi * 180 / π * π / 180 = (y s).phi := by field_simp
    rw [hent] at h2
    unfold recordedEnergy at h2
    rw [ep, ← er] at h2
    have h3 : jacobi P.J2 P.J3 P.OMEGAbar (y s).r (y s).phi (0 * 1000 / P.Vref) ≤
        jacobi P.J2 P.J3 P.OMEGAbar (y s).r (y s).phi (y s).v := by
      unfold jacobi
      have : 0 ≤ (y s).v ^ 2 / 2 := by positivity
      rw [zero_mul, zero_div]
      linarith
    simp only at h1
    linarith
  classical
  set E : ℝ → ℝ := fun s => if t ≤ s ∧ Hkm * 1000 ≤ (y s).r * P.RP - P.RP then 1 else 0 with hEdef
  have hE0 : ∀ s, 0 ≤ E s := fun s => by simp only [hEdef]; split_ifs <;> norm_num
  have hmono : AntitoneOn E (Set.Icc 0 T) := by
    refine guidedFlight_pieces htau hg _ fun k a b δ S h0 hab hbT _ hn => ?_
    intro s hs s' hs' hss
    by_cases hc : t ≤ s' ∧ Hkm * 1000 ≤ (y s').r * P.RP - P.RP
    swap
    · have : E s' = 0 := if_neg hc
      rw [this]
      exact hE0 s
    · by_cases hd : t ≤ s ∧ Hkm * 1000 ≤ (y s).r * P.RP - P.RP
      · have h1 : E s' = 1 := if_pos hc
        have h2 : E s = 1 := if_pos hd
        rw [h1, h2]
      · exfalso
        -- a point between `max s t` and `s'` would be at the altitude
        obtain ⟨w, hw1, hw2, hw3, hw4⟩ : ∃ w, s ≤ w ∧ t ≤ w ∧ w ≤ s' ∧ (y w).r * P.RP - P.RP < Hkm * 1000 := by
          rcases le_total t s with hts | hts
          · refine ⟨s, le_rfl, hts, hss, ?_⟩
            by_contra hcc
            exact hd ⟨hts, not_lt.mp hcc⟩
          · refine ⟨t, hts, le_rfl, hc.1, ?_⟩
            rw [div_lt_iff₀ (by norm_num)] at hlow
            exact hlow
        have hsub : Set.Icc w s' ⊆ Set.Icc a b := Set.Icc_subset_Icc (hs.1.trans hw1) hs'.2
        have hcont : ContinuousOn (fun s => (y s).r * P.RP - P.RP) (Set.Icc w s') :=
          ((hn.r.mono hsub).mul continuousOn_const).sub continuousOn_const
        obtain ⟨z, hz, hzH⟩ := intermediate_value_Icc hw3 hcont ⟨hw4.le, hc.2⟩
        exact hcross z ⟨hw2.trans hz.1, hz.2.trans (hs'.2.trans hbT)⟩ hzH
  have h1 := hmono ht ht' hle
  have h2 : E t = 0 := if_neg (fun hcc => by
    rw [div_lt_iff₀ (by norm_num)] at hlow
    linarith [hcc.2])
  rw [h2] at h1
  rw [div_lt_iff₀ (by norm_num)]
  by_contra hcc
  have h3 : E t' = 1 := if_pos ⟨hle, not_lt.mp hcc⟩
  rw [h3] at h1
  norm_num at h1

/-- **C124** for guided entries with lift: whatever the guidance commands, no recorded speed exceeds that of free fall from an
earlier entry, and the vehicle never climbs to an altitude its energy does not reach. -/
theorem C124_guided_lift_caps (name : String) (P : Planet) (hP : Planet.init name = .ok P) (m beta LD A alpha RN : ℝ)
    (atm : Atmosphere) (u : Bool) (f : ℝ → ℝ) (st : InitState) (hm : 0 < m) (hb : 0 < beta) (hA : 0 < A) (hf : ∀ M, 0 ≤ f M)
    (hatm : ∀ h, 0 ≤ h → h ≤ P.hThres → 0 ≤ atm.densityInt h)
    (G : GuideParams) (mode : ScipyMode) (I : Integrator) (hI : SolveIvpLike I) (fuel : ℕ)
    (hdotref : Option (List (Option ℝ))) (ts dt maxTime : ℝ) (hdt : 0 < dt) (o : GuidedOut) (V : Vehicle)
    (hV : V = Vehicle.mk' m beta LD A alpha RN P atm u f st)
    (ho : Vehicle.propogateGuidedEntry G mode I fuel V hdotref ts dt maxTime = some (.ok o) ∨
      ∃ I₀, Vehicle.propogateGuidedEntry2 G mode I₀ I fuel V hdotref ts dt maxTime = some (.ok o))
    (hfly : ∀ x, StartsIn o.fin.hist x → ∀ δ ∈ o.fin.deltaDeg,
      FollowsFlight (fun s => s.r ≠ 0 ∧ 0 ≤ s.v) 0 (V.setInitialState x) I 1 dt δ ∧
      FollowsFlight (fun s => s.r ≠ 0 ∧ 0 ≤ s.v) 0 (V.setInitialState x) I ts dt δ) :
    NoFasterThanFall P o.fin.hist ∧ CannotClimb P o.fin.hist := by
  refine ⟨falls_noFaster hP (C111_lift_energy_falls name P hP m beta LD A alpha RN atm u f st hm hb hA hf hatm G mode I hI fuel
    hdotref ts dt maxTime hdt o V hV ho hfly), ?_⟩
  subst hV
  obtain ⟨_, hRP, _, hrho, _⟩ := C01_planet_consistent name P hP
  obtain ⟨y, T, hg⟩ := C111_lift_one_flight name G mode I hI fuel _ hP hdotref ts dt maxTime hdt _ 0 o ho hfly
  refine guidedFlight_cannotClimb name P hP hg (fun _ h => h) (fun _ => rfl) fun _ => ?_
  refine a_sbar_nonpos name _ hP hatm ?_ ?_ ?_ hf
  · simp only [Vehicle.mk']; positivity
  · simp only [Vehicle.mk']; positivity
  · simp only [Vehicle.mk']; positivity

/-- **C124** for drag-modulated guided entries, jettison of the drag skirt included. -/
theorem C124_guided_drag_caps (name : String) (P : Planet) (hP : Planet.init name = .ok P) (m beta LD A alpha RN : ℝ)
    (atm : Atmosphere) (u : Bool) (f : ℝ → ℝ) (st : InitState) (hm : 0 < m) (hA : 0 < A) (hf : ∀ M, 0 ≤ f M)
    (hatm : ∀ h, 0 ≤ h → h ≤ P.hThres → 0 ≤ atm.densityInt h)
    (G : GuideParams) (hb : 0 < G.beta1) (hratio : 0 < G.betaRatio) (mode : ScipyMode) (I : Integrator) (hI : SolveIvpLike I)
    (fuel : ℕ) (hdotref : Option (List (Option ℝ))) (tsE tsX dt maxTime : ℝ) (hdt : 0 < dt) (o : GuidedOut) (V : Vehicle)
    (hV : V = Vehicle.mk' m beta LD A alpha RN P atm u f st)
    (ho : Vehicle.propogateGuidedEntryD G mode I fuel V hdotref tsE tsX dt maxTime = some (.ok o) ∨
      Vehicle.propogateGuidedEntryD2 G mode I fuel V hdotref tsE tsX dt maxTime = some (.ok o))
    (hfly : ∀ x, StartsIn o.fin.hist x → ∀ δ ∈ o.fin.deltaDeg,
      FollowsFlight (fun s => s.r ≠ 0 ∧ 0 ≤ s.v) 0 ((V.setBeta G.beta1).setInitialState x) I 1 dt δ ∧
      FollowsFlight (fun s => s.r ≠ 0 ∧ 0 ≤ s.v) 0 ((V.setBeta G.beta1).setInitialState x) I tsE dt δ ∧
      FollowsFlight (fun s => s.r ≠ 0 ∧ 0 ≤ s.v) 0 ((V.setBeta (G.beta1 * G.betaRatio)).setInitialState x) I tsX dt δ) :
    NoFasterThanFall P o.fin.hist ∧ CannotClimb P o.fin.hist := by
  refine ⟨falls_noFaster hP (C111_drag_energy_falls name P hP m beta LD A alpha RN atm u f st hm hA hf hatm G hb hratio mode I hI
    fuel hdotref tsE tsX dt maxTime hdt o V hV ho hfly), ?_⟩
  subst hV
  obtain ⟨_, hRP, _, hrho, _⟩ := C01_planet_consistent name P hP
  obtain ⟨y, T, n, -, -, hg⟩ := C111_drag_one_flight name G mode I hI fuel _ hP hdotref tsE tsX dt maxTime hdt _ 0 o ho hfly
  have key : ∀ b, 0 < b → ∀ r theta phi v delta,
      ((Vehicle.mk' m beta LD A alpha RN P atm u f st).setBeta b).a_sbar r theta phi v delta ≤ 0 := by
    intro b hb
    refine a_sbar_nonpos name _ hP hatm ?_ ?_ ?_ hf
    · simp only [Vehicle.mk', Vehicle.setBeta]; positivity
    · simp only [Vehicle.mk', Vehicle.setBeta]; positivity
    · simp only [Vehicle.mk', Vehicle.setBeta]; positivity
  refine guidedFlight_cannotClimb name P hP hg (fun _ h => h) (fun k => ?_) fun k => ?_
  · split_ifs <;> rfl
  · split_ifs
    · exact key _ hb
    · exact key _ (mul_pos hb hratio)

/-! ### Cases -/

/-- The circular flight of the cases has less energy than a vehicle at rest 20 000 km above Venus. -/
theorem circle_energy_low (P : Planet) (hP : Planet.init "VENUS" = .ok P) (v0 : ℝ) (hv0 : 0 < v0)
    (hbal : ∀ st th,
      (circleVehicle P st).Lbar ((P.RP + 179500) / P.RP) th 0 v0 / (circleVehicle P st).mbar
      + v0 ^ 2 / ((P.RP + 179500) / P.RP) + 2 * P.OMEGAbar * v0 + P.OMEGAbar ^ 2 * ((P.RP + 179500) / P.RP)
      = 1 / ((P.RP + 179500) / P.RP) ^ 2 + 3 / 2 * P.J2 / ((P.RP + 179500) / P.RP) ^ 4) (ψ : ℝ) :
    recordedEnergy P 179.5 0 (v0 * P.Vref / 1000) < recordedEnergy P 20000 ψ 0 := by
  obtain ⟨_, hR, hGM, hrho, _, _, _, _, hV, htau, h11, h12, h13, _⟩ := C01_planet_consistent "VENUS" P hP
  have hRP : P.RP = 6051800 := by
    have : P.RP = 6051.8e3 := by simp [Planet.init] at hP; subst hP; rfl
    rw [this]; norm_num
  have hGMv : P.GM = 324859900000000 := by
    have : P.GM = 3.248599e14 := by simp [Planet.init] at hP; subst hP; rfl
    rw [this]; norm_num
  have hJ2 : P.J2 = 4458 / 1000000000 := by
    have : P.J2 = 4.458e-6 := by simp [Planet.init] at hP; subst hP; rfl
    rw [this]; norm_num
  have hJ3 : P.J3 = 0 := by simp [Planet.init] at hP; subst hP; rfl
  have hOm : P.OMEGA = -2.99237e-7 := by simp [Planet.init] at hP; subst hP; rfl
  have hOb : P.OMEGAbar ^ 2 ≤ 1 / 1000000 := by
    have e : P.tau ^ 2 * P.GM = P.RP ^ 3 := by rw [← h11, ← h12]; ring
    rw [h13, mul_pow, hOm]
    rw [hRP, hGMv] at e
    nlinarith
  have hOb' : |P.OMEGAbar| ≤ 1 / 1000 := by
    refine abs_le_of_sq_le_sq ?_ (by norm_num)
    linarith
  have hlift : 0 ≤ (circleVehicle P ⟨0, 0, 0, 0, 0, 0, 0, 0⟩).Lbar ((P.RP + 179500) / P.RP) 0 0 v0 /
      (circleVehicle P ⟨0, 0, 0, 0, 0, 0, 0, 0⟩).mbar := by
    have h1 := (C03_density_nonneg "VENUS" P hP ⟨fun _ => 1, fun _ => 1, fun _ => 1, fun _ => 1⟩
      (fun _ _ _ => zero_le_one) ((P.RP + 179500) / P.RP) 0 0).2.1
    have h2 : 0 ≤ (circleVehicle P ⟨0, 0, 0, 0, 0, 0, 0, 0⟩).Abar := by simp only [circleVehicle, Vehicle.mk']; positivity
    have h3 : 0 ≤ (circleVehicle P ⟨0, 0, 0, 0, 0, 0, 0, 0⟩).CL := by norm_num [circleVehicle, Vehicle.mk']
    have h4 : 0 ≤ (circleVehicle P ⟨0, 0, 0, 0, 0, 0, 0, 0⟩).mbar := by simp only [circleVehicle, Vehicle.mk']; positivity
    have h5 : (0:ℝ) ≤ 0.5 := by norm_num
    have h6 : 0 ≤ (circleVehicle P ⟨0, 0, 0, 0, 0, 0, 0, 0⟩).planet.rhobar
      (circleVehicle P ⟨0, 0, 0, 0, 0, 0, 0, 0⟩).atm ((P.RP + 179500) / P.RP) 0 0 := h1
    unfold Vehicle.Lbar
    positivity
  have hb := hbal ⟨0, 0, 0, 0, 0, 0, 0, 0⟩ 0
  -- the speed
  have hρ : (P.RP + 179500) / P.RP = 62313 / 60518 := by rw [hRP]; norm_num
  rw [hρ] at hb hlift
  have hv : v0 ^ 2 ≤ 105 / 100 := by
    obtain ⟨o1, o2⟩ := abs_le.mp hOb'
    have h2 : 0 ≤ P.OMEGAbar ^ 2 * (62313 / 60518) := by positivity
    have h3 : v0 ^ 2 / (62313 / 60518) ≤ 1 / (62313 / 60518) ^ 2 + 3 / 2 * P.J2 / (62313 / 60518) ^ 4 - 2 * P.OMEGAbar * v0 := by
      linarith
    rw [hJ2] at h3
    norm_num at h3
    by_contra hc
    push Not at hc
    nlinarith
  have e1 : 1 + 179.5 * 1000 / P.RP = 62313 / 60518 := by rw [hRP]; norm_num
  have e2 : v0 * P.Vref / 1000 * 1000 / P.Vref = v0 := by field_simp
  have e3 : (0:ℝ) * π / 180 = 0 := by simp
  have e4 : 1 + 20000 * 1000 / P.RP = 260518 / 60518 := by rw [hRP]; norm_num
  have l1 := potential_scaled_ge P.J2 P.J3 (r := 62313 / 60518) (by norm_num) 0
  have l2 := potential_scaled P.J2 P.J3 (r := 260518 / 60518) (by norm_num) (ψ * π / 180)
  rw [hJ3, hJ2, abs_zero, abs_of_pos (by norm_num)] at l1 l2
  have hcos := cos_sq_le_one (ψ * π / 180)
  have hrot : P.OMEGAbar ^ 2 * (260518 / 60518 * cos (ψ * π / 180)) ^ 2 ≤ 1 / 1000000 * 20 := by
    refine mul_le_mul hOb ?_ (sq_nonneg _) (by norm_num)
    rw [mul_pow]
    nlinarith
  have hrot0 : 0 ≤ P.OMEGAbar ^ 2 * (62313 / 60518 * cos 0) ^ 2 := by positivity
  unfold recordedEnergy
  rw [e1, e2, e3, e4, zero_mul, zero_div]
  unfold jacobi
  rw [hJ3, hJ2]
  linarith

/-- Case for `C124_guided_lift_caps`: an entry with lift on the circle, of three cycles, whose energy does not reach 20 000 km. -/
example : ∃ (P : Planet) (V : Vehicle) (G : GuideParams) (o : GuidedOut) (w : ℝ), Planet.init "VENUS" = .ok P ∧
    V = Vehicle.mk' 500 100 0.2 1 0 1 P ⟨fun _ => 1, fun _ => 1, fun _ => 1, fun _ => 1⟩ true (fun _ => 0) V.init ∧
    Vehicle.propogateGuidedEntry G .strict circleIntegrator 3 V none 1 0.1 600 = some (.ok o) ∧ o.fin.deltaDeg.length = 3 ∧
    AllOnCircle w o.fin.hist ∧ (∀ ψ, recordedEnergy P 179.5 0 w < recordedEnergy P 20000 ψ 0) ∧
    NoFasterThanFall P o.fin.hist ∧ CannotClimb P o.fin.hist := by
  obtain ⟨P, hP⟩ := (C01_planet_names "VENUS").1.mpr (by simp [Spec.bodies])
  have hS : P.hSkip = 180000 := by simp [Planet.init] at hP; subst hP; rfl
  have hTh : P.hThres = 180000 := by simp [Planet.init] at hP; subst hP; rfl
  have hRv : P.RP = 6051800 := by simp [Planet.init] at hP; subst hP; norm_num [Planet.withScales]
  obtain ⟨v0, hv0, hbal⟩ := circle_speed P hP
  have hV : 0 < P.Vref := (C01_planet_consistent _ _ hP).2.2.2.2.2.2.2.2.1
  set w := v0 * P.Vref / 1000 with hw
  have hw0 : 0 < w := by positivity
  set V := circleVehicle P ⟨179.5, 0, 0, w, 0, 0, 0, 0⟩ with hVd
  let G : GuideParams := ⟨0, 75, 1, 0, 0, 20, 0, 250, 2000, 10, 50, 10⟩
  have hpc : ∀ cmd, (psuedoController G.maxRollRate cmd 0.0 1).1 = 0.0 := by
    intro cmd; unfold psuedoController; split_ifs <;> simp [G]
  obtain ⟨o, ho, hall, hdel⟩ := circle_run P hP V rfl w ⟨rfl, rfl, rfl, rfl, rfl⟩ G hw0 le_rfl
    (Vehicle.glide1 G .strict circleIntegrator) (Vehicle.exit1 G .strict circleIntegrator) (fun W => W) (fun _ => rfl) rfl rfl
    (by
      intro x hx
      obtain ⟨cmd, hc, _⟩ := C40_glide_command V G x (by norm_num [V, circleVehicle, Vehicle.mk'])
        (by norm_num [V, circleVehicle, Vehicle.mk']) (by
          obtain ⟨c1, -, c3, -⟩ := hx
          rw [c1, c3]
          simp only [V, circleVehicle, Vehicle.mk', Planet.density, hTh]; norm_num
          exact hw0.ne')
      exact ⟨_, by simp only [Vehicle.glide1, Vehicle.glideBank, hc, bind, Except.bind, pure, Except.pure, hpc]; rfl⟩)
    (hpc 0.0) (by simp only [Vehicle.glide1]; norm_num) (by simp only [Vehicle.exit1, hS]; norm_num)
  have hfly : ∀ x, StartsIn o.fin.hist x → ∀ δ ∈ o.fin.deltaDeg,
      FollowsFlight (fun s => s.r ≠ 0 ∧ 0 ≤ s.v) 0 (V.setInitialState x) circleIntegrator 1 0.1 δ := by
    intro x hx δ hδ
    have : δ = 0.0 := by rw [hdel] at hδ; simpa using hδ
    subst this
    refine circle_follows_at P hP v0 hv0 hbal V _ (Or.inl rfl) x (allOnCircle_starts hall hx) _ (fun s h1 h2 => ?_) _ le_rfl
    exact ⟨by rw [h1, hRv]; norm_num, by rw [h2]; exact hv0.le⟩
  refine ⟨P, V, G, o, w, hP, rfl, ho, by rw [hdel]; rfl, hall, circle_energy_low P hP v0 hv0 hbal, ?_⟩
  exact C124_guided_lift_caps "VENUS" P hP 500 100 0.2 1 0 1 ⟨fun _ => 1, fun _ => 1, fun _ => 1, fun _ => 1⟩ true (fun _ => 0) _
    (by norm_num) (by norm_num) (by norm_num) (fun _ => le_rfl) (fun _ _ _ => zero_le_one) G .strict circleIntegrator
    (OdeintLike.toIvp circleIntegrator_ok) 3 none 1 0.1 600 (by norm_num) o V rfl (Or.inl ho)
    (fun x hx δ hδ => ⟨hfly x hx δ hδ, hfly x hx δ hδ⟩)

/-- Case for `C124_guided_drag_caps`: a drag-modulated entry on the circle, with jettison. -/
example : ∃ (P : Planet) (V : Vehicle) (G : GuideParams) (o : GuidedOut) (w : ℝ), Planet.init "VENUS" = .ok P ∧
    V = Vehicle.mk' 500 100 0.2 1 0 1 P ⟨fun _ => 1, fun _ => 1, fun _ => 1, fun _ => 1⟩ true (fun _ => 0) V.init ∧
    0 < G.beta1 ∧ 1 < G.betaRatio ∧
    Vehicle.propogateGuidedEntryD G .strict circleIntegrator 3 V none 1 1 0.1 600 = some (.ok o) ∧ o.fin.deltaDeg.length = 3 ∧
    AllOnCircle w o.fin.hist ∧ (∀ ψ, recordedEnergy P 179.5 0 w < recordedEnergy P 20000 ψ 0) ∧
    NoFasterThanFall P o.fin.hist ∧ CannotClimb P o.fin.hist := by
  obtain ⟨P, hP⟩ := (C01_planet_names "VENUS").1.mpr (by simp [Spec.bodies])
  have hS : P.hSkip = 180000 := by simp [Planet.init] at hP; subst hP; rfl
  have hRv : P.RP = 6051800 := by simp [Planet.init] at hP; subst hP; norm_num [Planet.withScales]
  obtain ⟨v0, hv0, hbal⟩ := circle_speed P hP
  have hV : 0 < P.Vref := (C01_planet_consistent _ _ hP).2.2.2.2.2.2.2.2.1
  set w := v0 * P.Vref / 1000 with hw
  have hw0 : 0 < w := by positivity
  set V := circleVehicle P ⟨179.5, 0, 0, w, 0, 0, 0, 0⟩ with hVd
  let G : GuideParams := ⟨30, 75, 1, 0, 0, 20, 0, 250, 2000, 10, 50, 10⟩
  obtain ⟨o, ho, hall, hdel⟩ := circle_run P hP (V.setBeta G.beta1) rfl w ⟨rfl, rfl, rfl, rfl, rfl⟩ G hw0 le_rfl
    (Vehicle.drag1 G .strict circleIntegrator) (Vehicle.exitD1 .strict circleIntegrator)
    (fun W => W.setBeta (G.beta1 * G.betaRatio)) (fun _ => rfl) rfl rfl
    (fun x _ => ⟨none, rfl⟩) rfl (by simp only [Vehicle.drag1]; norm_num) (by left; rw [hS]; norm_num)
  have hfly : ∀ x, StartsIn o.fin.hist x → ∀ δ ∈ o.fin.deltaDeg, ∀ b,
      FollowsFlight (fun s => s.r ≠ 0 ∧ 0 ≤ s.v) 0 ((V.setBeta b).setInitialState x) circleIntegrator 1 0.1 δ := by
    intro x hx δ hδ b
    have : δ = 0.0 := by rw [hdel] at hδ; simpa using hδ
    subst this
    refine circle_follows_at P hP v0 hv0 hbal _ _ (Or.inr ⟨b, rfl⟩) x (allOnCircle_starts hall hx) _ (fun s h1 h2 => ?_) _
      le_rfl
    exact ⟨by rw [h1, hRv]; norm_num, by rw [h2]; exact hv0.le⟩
  have hb : 0 < G.beta1 := by norm_num [G]
  have hr : 1 < G.betaRatio := by norm_num [G]
  refine ⟨P, V, G, o, w, hP, rfl, hb, hr, ho, by rw [hdel]; rfl, hall, circle_energy_low P hP v0 hv0 hbal, ?_⟩
  exact C124_guided_drag_caps "VENUS" P hP 500 100 0.2 1 0 1 ⟨fun _ => 1, fun _ => 1, fun _ => 1, fun _ => 1⟩ true (fun _ => 0) _
    (by norm_num) (by norm_num) (fun _ => le_rfl) (fun _ _ _ => zero_le_one) G hb (by linarith) .strict circleIntegrator
    (OdeintLike.toIvp circleIntegrator_ok) 3 none 1 1 0.1 600 (by norm_num) o V rfl (Or.inl ho)
    (fun x hx δ hδ => ⟨hfly x hx δ hδ _, hfly x hx δ hδ _, hfly x hx δ hδ _⟩)

end AMAT.Props
