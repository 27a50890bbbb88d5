import Verif.Props.AfterExit
import Verif.Props.ProbeEntryPoint
import Verif.Props.Deflected
import Verif.Lemmas.ConicTime

/-
Property C146, continued: from every exit that is not radial there is exactly one free motion, and the capture verdict can also
be wrong for a vehicle that stays bound.
-/

noncomputable section

open Real

namespace AMAT.Props

open Real AMAT AMAT.Spec

/-- A point of the unit circle has an angle. -/
theorem circle_angle {a b : ℝ} (h : a ^ 2 + b ^ 2 = 1) : ∃ t, cos t = a ∧ sin t = b := by
  have ha : -1 ≤ a ∧ a ≤ 1 := by constructor <;> nlinarith [sq_nonneg b]
  rcases le_or_gt 0 b with hb | hb
  · refine ⟨arccos a, cos_arccos ha.1 ha.2, ?_⟩
    rw [sin_arccos, show 1 - a ^ 2 = b ^ 2 by linarith, sqrt_sq hb]
  · refine ⟨-arccos a, by rw [cos_neg, cos_arccos ha.1 ha.2], ?_⟩
    rw [sin_neg, sin_arccos, show 1 - a ^ 2 = (-b) ^ 2 by rw [neg_sq]; linarith, sqrt_sq (by linarith)]
    ring

/-- Every state that is not radial lies on a conic. -/
theorem polar_state {GM : ℝ} (hGM : 0 < GM) {R U : V3} (hh : 0 < angMom R U) : ∃ (e : ℝ) (u w : V3) (t : ℝ), 0 ≤ e ∧
    e ^ 2 = 1 + 2 * energy GM R U * angMom R U ^ 2 / GM ^ 2 ∧ V3.dot u u = 1 ∧ V3.dot w w = 1 ∧ V3.dot u w = 0 ∧
    0 < 1 + e * cos t ∧ cPos (angMom R U ^ 2 / GM) e u (V3.cross w u) t = R ∧ cVel (GM / angMom R U) e u (V3.cross w u) t = U := by
  have hH0 : V3.cross R U ≠ 0 := by
    intro h0
    unfold angMom at hh
    rw [h0, V3.norm_eq_zero.mpr rfl] at hh
    exact lt_irrefl _ hh
  have hR : R ≠ 0 := by rintro rfl; apply hH0; ext <;> simp [V3.cross]
  have hr := V3.norm_pos hR
  set h := angMom R U with hhd
  have hhn : V3.norm (V3.cross R U) = h := rfl
  set w : V3 := (1 / h) • V3.cross R U with hw
  have hww : V3.dot w w = 1 := by
    rw [hw, V3.dot_smul_left, V3.dot_smul_right, ← V3.norm_sq, hhn]; field_simp
  have hHw : V3.cross R U = h • w := by rw [hw, V3.smul_smul, mul_one_div, div_self hh.ne', V3.one_smul]
  have hRw : V3.dot R w = 0 := by
    rw [hw, V3.dot_smul_right, V3.dot_cross_left, mul_zero]
  obtain ⟨e, u, he0, heu, huu, huw⟩ : ∃ (e : ℝ) (u : V3), 0 ≤ e ∧ eccVec GM R U = e • u ∧ V3.dot u u = 1 ∧ V3.dot u w = 0 := by
    by_cases hz : eccVec GM R U = 0
    · refine ⟨0, (1 / V3.norm R) • R, le_rfl, ?_, ?_, ?_⟩
      · rw [hz]; ext <;> simp
      · rw [V3.dot_smul_left, V3.dot_smul_right, ← V3.norm_sq]; field_simp
      · rw [V3.dot_smul_left, hRw, mul_zero]
    · have hn := V3.norm_pos hz
      refine ⟨V3.norm (eccVec GM R U), (1 / V3.norm (eccVec GM R U)) • eccVec GM R U, hn.le, ?_, ?_, ?_⟩
      · rw [V3.smul_smul, mul_one_div, div_self hn.ne', V3.one_smul]
      · rw [V3.dot_smul_left, V3.dot_smul_right, ← V3.norm_sq]; field_simp
      · rw [V3.dot_smul_left, hw, V3.dot_smul_right, ecc_dot_cross, mul_zero, mul_zero]
  have he2 : e ^ 2 = 1 + 2 * energy GM R U * h ^ 2 / GM ^ 2 := by
    have := ecc_sq hGM hR U
    rw [heu, V3.dot_smul_left, V3.dot_smul_right, huu, hhn] at this
    rw [← this]; ring
  have hdec := plane_decomp huu hww huw hRw
  obtain ⟨c1, c2⟩ := cross_unit huu hww huw
  set x := V3.dot R u with hx
  set y := V3.dot R (V3.cross w u) with hy
  have hxy : x ^ 2 + y ^ 2 = V3.norm R ^ 2 := by
    rw [V3.norm_sq, hdec]
    generalize V3.cross w u = q at c1 c2
    have : V3.dot (x • u + y • q) (x • u + y • q) = x ^ 2 * V3.dot u u + 2 * x * y * V3.dot u q + y ^ 2 * V3.dot q q := by
      simp only [V3.dot, V3.add_x, V3.add_y, V3.add_z, V3.smul_x, V3.smul_y, V3.smul_z]; ring
    rw [this, huu, c1, c2]; ring
  obtain ⟨t, ht1, ht2⟩ := circle_angle (a := x / V3.norm R) (b := y / V3.norm R) (by
    rw [div_pow, div_pow, ← add_div, hxy, div_self (by positivity)])
  have hex : e * x = h ^ 2 / GM - V3.norm R := by
    have := ecc_dot_pos (GM := GM) hR U
    rw [heu, V3.dot_smul_right, hhn] at this
    linarith
  have hden : 1 + e * cos t = h ^ 2 / GM / V3.norm R := by
    rw [ht1, eq_div_iff hr.ne']
    have : (1 + e * (x / V3.norm R)) * V3.norm R = V3.norm R + e * x := by field_simp
    rw [this, hex]; ring
  have hd0 : 0 < 1 + e * cos t := by rw [hden]; positivity
  have hpos : cPos (h ^ 2 / GM) e u (V3.cross w u) t = R := by
    unfold cPos
    rw [hden, div_div_cancel₀ (by positivity), ht1, ht2]
    conv_rhs => rw [hdec]
    generalize V3.cross w u = q
    ext <;> simp only [V3.add_x, V3.add_y, V3.add_z, V3.smul_x, V3.smul_y, V3.smul_z] <;> field_simp
  refine ⟨e, u, w, t, he0, he2, huu, hww, huw, hd0, hpos, ?_⟩
  obtain ⟨-, -, h1, h2, -⟩ := conic_state (e := e) (t := t) hGM hh huu hww huw hd0 rfl rfl rfl
  rw [cVel_eq] at h1 h2
  change V3.cross (cPos (h ^ 2 / GM) e u (V3.cross w u) t) _ = _ at h1
  change eccVec GM (cPos (h ^ 2 / GM) e u (V3.cross w u) t) _ = _ at h2
  rw [hpos] at h1 h2
  refine velocity_unique hGM (by rw [h1, hHw]) ?_ (by rw [h2, heu])
  rw [h1, ← hHw]; exact hH0

/-- A conic passed at the right rate is a motion. -/
theorem rated_motion {GM h e : ℝ} {u w : V3} (hGM : 0 < GM) (hh : 0 < h) (hu : V3.dot u u = 1) (hw : V3.dot w w = 1)
    (huw : V3.dot u w = 0) {θ : ℝ → ℝ} (hden : ∀ s, 0 < 1 + e * cos (θ s))
    (hd : ∀ s, HasDerivAt θ ((h ^ 2 / GM / (1 + e * cos (θ s))) ^ 2 / h)⁻¹ s) :
    TwoBodyMotion GM (fun s => cPos (h ^ 2 / GM) e u (V3.cross w u) (θ s)) (fun s => cVel (GM / h) e u (V3.cross w u) (θ s)) := by
  intro s
  have hn := (conic_state (r := h ^ 2 / GM / (1 + e * cos (θ s))) hGM hh hu hw huw (hden s) rfl rfl rfl).2.1
  change V3.norm (cPos (h ^ 2 / GM) e u (V3.cross w u) (θ s)) = _ at hn
  have h2 := conic_twoBody (t := θ s) hGM hh hu hw huw (hden s)
  unfold TwoBodyAt at h2
  have hds := hd s
  rw [← hn] at hds
  have hr0 : 0 < V3.norm (cPos (h ^ 2 / GM) e u (V3.cross w u) (θ s)) ^ 2 / h := by
    rw [hn]; have := hden s; positivity
  set k := V3.norm (cPos (h ^ 2 / GM) e u (V3.cross w u) (θ s)) ^ 2 / h with hk
  obtain ⟨⟨x1, x2, x3⟩, y1, y2, y3⟩ := h2
  have hi : ∀ c : ℝ, k * c * k⁻¹ = c := fun c => by field_simp
  refine ⟨⟨?_, ?_, ?_⟩, ?_, ?_, ?_⟩
  · exact (HasDerivAt.comp s x1 hds).congr_deriv (by simp only [V3.smul_x]; exact hi _)
  · exact (HasDerivAt.comp s x2 hds).congr_deriv (by simp only [V3.smul_y]; exact hi _)
  · exact (HasDerivAt.comp s x3 hds).congr_deriv (by simp only [V3.smul_z]; exact hi _)
  · exact (HasDerivAt.comp s y1 hds).congr_deriv (by simp only [V3.smul_x]; exact hi _)
  · exact (HasDerivAt.comp s y2 hds).congr_deriv (by simp only [V3.smul_y]; exact hi _)
  · exact (HasDerivAt.comp s y3 hds).congr_deriv (by simp only [V3.smul_z]; exact hi _)

/-- The time on a parabola, as a function of the tangent of half the anomaly. -/
theorem barker {c : ℝ} (hc : 0 < c) : ∃ σ : ℝ → ℝ, (∀ s, HasDerivAt σ (c * (1 + σ s ^ 2))⁻¹ s) ∧ Function.Surjective σ := by
  set T : ℝ → ℝ := fun x => c * (x + x ^ 3 / 3) with hT
  have hTd : ∀ x, HasDerivAt T (c * (1 + x ^ 2)) x := fun x => by
    have := (((hasDerivAt_id x).add (((hasDerivAt_id x).pow 3).div_const 3)).const_mul c)
    refine this.congr_deriv ?_
    simp only [id]
    push_cast
    ring
  have hmono : StrictMono T := by
    apply strictMono_of_deriv_pos
    intro x
    rw [(hTd x).deriv]; positivity
  have hcont : Continuous T := by rw [hT]; fun_prop
  have hsurj : Function.Surjective T := by
    intro y
    have hl : T (-(|y| / c)) ≤ y := by
      have e1 : T (-(|y| / c)) = -|y| - c * (|y| / c) ^ 3 / 3 := by simp only [hT]; field_simp; ring
      have : 0 ≤ c * (|y| / c) ^ 3 / 3 := by positivity
      rw [e1]
      linarith [neg_abs_le y]
    have hr : y ≤ T (|y| / c) := by
      have e1 : T (|y| / c) = |y| + c * (|y| / c) ^ 3 / 3 := by simp only [hT]; field_simp
      have : 0 ≤ c * (|y| / c) ^ 3 / 3 := by positivity
      rw [e1]
      linarith [le_abs_self y]
    obtain ⟨x, -, hx⟩ := intermediate_value_Icc (show -(|y| / c) ≤ |y| / c by
      have : 0 ≤ |y| / c := by positivity
      linarith) hcont.continuousOn ⟨hl, hr⟩
    exact ⟨x, hx⟩
  set I := StrictMono.orderIsoOfSurjective T hmono hsurj with hI
  refine ⟨fun s => I.symm s, fun s => ?_, I.symm.surjective⟩
  exact HasDerivAt.of_local_left_inverse I.symm.continuous.continuousAt (hTd _) (by positivity)
    (Filter.Eventually.of_forall fun x => I.apply_symm_apply x)

/-- From every state that is not radial there is a motion for all times. -/
theorem every_motion {GM : ℝ} (hGM : 0 < GM) {R0 U0 : V3} (hh : 0 < angMom R0 U0) : ∃ R U, StartsAt GM R0 U0 R U := by
  obtain ⟨e, u, w, t, he0, he2, hu, hw, huw, hden, hpos, hvel⟩ := polar_state hGM hh
  set h := angMom R0 U0 with hhd
  rcases lt_trichotomy (energy GM R0 U0) 0 with hE | hE | hE
  · have he1 : e < 1 := by
      have : 2 * energy GM R0 U0 * h ^ 2 / GM ^ 2 < 0 := by
        apply div_neg_of_neg_of_pos _ (by positivity)
        exact mul_neg_of_neg_of_pos (by linarith) (by positivity)
      nlinarith
    obtain ⟨⟨R, U, m1, m2, m3⟩, -⟩ := conic_clock (e := e) hGM hh (by linarith) he1 hu hw huw t
    exact ⟨R, U, m1, m2.trans hpos, m3.trans hvel⟩
  · have he1 : e = 1 := by
      rw [hE] at he2
      have : e ^ 2 = 1 := by rw [he2]; ring
      nlinarith
    rw [he1] at hden hpos hvel
    have hp : 0 < h ^ 2 / GM := by positivity
    obtain ⟨σ, hσ, hs⟩ := barker (c := (h ^ 2 / GM) ^ 2 / (2 * h)) (by positivity)
    have hcs : ∀ x : ℝ, 1 + 1 * cos (2 * arctan x) = 2 / (1 + x ^ 2) := fun x => by
      rw [cos_two_mul, cos_sq_arctan]; ring
    have hm := rated_motion (e := 1) (θ := fun s => 2 * arctan (σ s)) hGM hh hu hw huw
      (fun s => by simp only [hcs]; positivity) (fun s => by
        refine (((hasDerivAt_arctan (σ s)).comp s (hσ s)).const_mul 2).congr_deriv ?_
        simp only [hcs]
        have : (1:ℝ) + σ s ^ 2 ≠ 0 := by positivity
        field_simp)
    -- the parameter of the starting point
    have hct : cos (t / 2) ≠ 0 := by
      intro h0
      have h1 := cos_two_mul (t / 2)
      rw [show 2 * (t / 2) = t by ring, h0] at h1
      rw [h1] at hden
      norm_num at hden
    obtain ⟨s0, hs0⟩ := hs (tan (t / 2))
    have hc0 : cos (2 * arctan (σ s0)) = cos t := by
      have h1 := cos_two_mul (t / 2)
      rw [show 2 * (t / 2) = t by ring] at h1
      have h2 := sin_sq_add_cos_sq (t / 2)
      rw [hs0, cos_two_mul, cos_sq_arctan, h1, tan_eq_sin_div_cos]
      have h3 : 1 + (sin (t / 2) / cos (t / 2)) ^ 2 = 1 / cos (t / 2) ^ 2 := by
        field_simp; linarith
      rw [h3, one_div_one_div]
    have hsn0 : sin (2 * arctan (σ s0)) = sin t := by
      have h1 := sin_two_mul (t / 2)
      rw [show 2 * (t / 2) = t by ring] at h1
      have h2 := sin_sq_add_cos_sq (t / 2)
      have h5 : sin (2 * arctan (σ s0)) = 2 * (σ s0) * cos (arctan (σ s0)) ^ 2 := by
        rw [sin_two_mul]
        have h6 := tan_arctan (σ s0)
        rw [tan_eq_sin_div_cos, div_eq_iff (cos_arctan_pos _).ne'] at h6
        rw [h6]; ring
      rw [h5, hs0, cos_sq_arctan, h1, tan_eq_sin_div_cos]
      have h3 : 1 + (sin (t / 2) / cos (t / 2)) ^ 2 = 1 / cos (t / 2) ^ 2 := by
        field_simp; linarith
      rw [h3, one_div_one_div]
      field_simp
    refine ⟨_, _, motion_shift hm s0, ?_, ?_⟩
    · simp only [zero_add]
      rw [← hpos]
      unfold cPos
      rw [hc0, hsn0]
    · simp only [zero_add]
      rw [← hvel]
      unfold cVel
      rw [hc0, hsn0]
  · have hr : 0 < V3.norm R0 := by
      apply V3.norm_pos
      rintro rfl
      have : angMom 0 U0 = 0 := V3.norm_eq_zero.mpr (by ext <;> simp [V3.cross])
      rw [hhd, this] at hh
      exact lt_irrefl _ hh
    obtain ⟨R, U, m1, m2, m3⟩ := hyperbolic_motion hGM R0 U0 hr hE hh
    exact ⟨R, U, m1, m2, m3⟩

/-- C146: every exit that is not radial starts exactly one free motion, for all times. -/
theorem C146_one_motion (name : String) (P : Planet) (hP : Planet.init name = .ok P) (s : Terminal) (hh : 0 < exitAngMom P s) :
    (∃ R U, CoastsFrom P s R U) ∧ ∀ R U R' U', CoastsFrom P s R U → CoastsFrom P s R' U' → R = R' ∧ U = U' := by
  obtain ⟨_, _, hGM, _⟩ := C01_planet_consistent name P hP
  obtain ⟨R, U, m1, m2, m3⟩ := every_motion hGM hh
  refine ⟨⟨R, U, m1, m2, m3⟩, fun R U R' U' h h' => ?_⟩
  have hpos : ∀ t, 0 < V3.norm (R t) := by
    intro t
    apply V3.norm_pos
    intro h0
    have h1 := cross_const h.1 t
    rw [h0, h.2.1, h.2.2] at h1
    have h2 : exitAngMom P s = 0 := by
      unfold exitAngMom angMom
      rw [← h1]
      exact V3.norm_eq_zero.mpr (by ext <;> simp [V3.cross])
    rw [h2] at hh
    exact lt_irrefl _ hh
  have := twoBody_unique h.1 h'.1 hpos 0 (h.2.1.trans h'.2.1.symm) (h.2.2.trans h'.2.2.symm)
  exact ⟨funext fun t => (this t).1, funext fun t => (this t).2⟩

/-- A vehicle 119 km above Mars that climbs westwards at 5 km/s relative to the planet. -/
def marsWest (P : Planet) : Vehicle :=
  Vehicle.mk' 500 100 0.2 1 0 1 P ⟨fun _ => 1, fun _ => 1, fun _ => 1, fun _ => 1⟩ false (fun _ => 1)
    ⟨119, 0, 0, 5, 180, 7, 0, 0⟩

/-- C146 (finding): `isCaptured` calls a vehicle not captured that never gets farther from Mars than the apoapsis reported for
it.  The solver of this case keeps the state constant (`constIntegrator`).  Also a case for `C146_one_motion` and
`C146_bound_stays`. -/
theorem C146_not_captured_but_stays : ∃ (P : Planet) (out : PropOut) (s : Terminal) (A : ℝ),
    Planet.init "MARS" = .ok P ∧ (marsWest P).propogateEntry .strict constIntegrator 1200 0.1 0 = .ok out ∧ Spec.IsLast out s ∧
    (marsWest P).isCaptured .strict constIntegrator 1200 0.1 0 = .ok 1 ∧ 0 < exitAngMom P s ∧ (∃ R U, CoastsFrom P s R U) ∧
    s.apoapsisAltitudeKm P = some A ∧ ∀ R U, CoastsFrom P s R U → ∀ t, 0 ≤ t → V3.norm (R t) ≤ P.RP + 1000 * A := by
  obtain ⟨P, hP⟩ := (C01_planet_names "MARS").1.mpr (by simp [Spec.bodies])
  obtain ⟨_, hR, hGM, _, _, _, _, _, hV, _⟩ := C01_planet_consistent "MARS" P hP
  have c : P.RP = 3389500 ∧ P.GM = 42828370000000 ∧ P.OMEGA = 7088253 / 100000000000 ∧ P.hTrap = 10000 ∧ P.hSkip = 120000 := by
    simp [Planet.init] at hP
    subst hP
    norm_num [Planet.withScales]
  obtain ⟨c1, c2, c3, c4, c5⟩ := c
  have hp : (marsWest P).planet = P := rfl
  have e : (P.nonDimState (Vehicle.entryState P (marsWest P).init)).r * P.RP - P.RP = 119000 := by
    simp only [Planet.nonDimState, Vehicle.entryState, Planet.computeR, marsWest, Vehicle.mk', div_mul_cancel₀ _ hR.ne']
    norm_num
  obtain ⟨S, e1, e2⟩ := samples_const "MARS" (marsWest P) hP 1200 0.1 0 (by norm_num) (by norm_num)
  obtain ⟨out, ho⟩ := C24_returns "MARS" (marsWest P) hP .strict constIntegrator 1200 0.1 0 _ S e1
    (by rw [hp, e, c4]; norm_num) (by rw [hp, e, c5]; norm_num) (by intro q hq; rw [e2 q hq, hp, e, c4]; norm_num)
  obtain ⟨s, ans, hs, hr, hcap, hans, -, hE, -, -⟩ := C146_verdict_partial "MARS" (marsWest P) hP .strict constIntegrator 1200 0.1 0 out ho
  obtain ⟨-, -, -, a4, a5, a6, a7, a8, a9, -⟩ := C24_arrays_aligned (marsWest P) .strict constIntegrator 1200 0.1 0 out ho
  have hall : ∀ q ∈ samples (marsWest P) constIntegrator 1200 0.1 0,
      q.2 = P.nonDimState (Vehicle.entryState P (marsWest P).init) := by
    intro q hq
    rw [e1, List.mem_cons] at hq
    rcases hq with rfl | hq
    · rfl
    · exact e2 q hq
  have hget : ∀ (l : List ℝ) (f : FState → ℝ) (x : ℝ),
      l = ((samples (marsWest P) constIntegrator 1200 0.1 0).take out.index).map (fun p => f p.2) → l.getLast? = some x →
      x = f (P.nonDimState (Vehicle.entryState P (marsWest P).init)) := by
    intro l f x hl hx
    have := List.mem_of_getLast? hx
    rw [hl, List.mem_map] at this
    obtain ⟨q, hq, rfl⟩ := this
    rw [hall q (List.mem_of_mem_take hq)]
  have s1 : s.r = 3508500 := by
    have := hget _ (fun y => y.r * P.RP) _ a4 hs.1
    rw [this]
    linarith [e]
  have s2 : s.v = 5000 := by
    rw [hget _ (fun y => y.v * P.Vref) _ a7 hs.2.1]
    simp only [Planet.nonDimState, Vehicle.entryState, marsWest, Vehicle.mk', div_mul_cancel₀ _ hV.ne']
    norm_num
  have s3 : s.g = 7 * π / 180 := by
    rw [hget _ (fun y => y.gamma) _ a9 hs.2.2.1]
    simp only [Planet.nonDimState, Vehicle.entryState, marsWest, Vehicle.mk']
    norm_num
  have s4 : s.theta = 0 := by
    rw [hget _ (fun y => y.theta) _ a5 hs.2.2.2.1]
    simp [Planet.nonDimState, Vehicle.entryState, marsWest, Vehicle.mk']
  have s5 : s.phi = 0 := by
    rw [hget _ (fun y => y.phi) _ a6 hs.2.2.2.2.1]
    simp [Planet.nonDimState, Vehicle.entryState, marsWest, Vehicle.mk']
  have s6 : s.psi = π := by
    rw [hget _ (fun y => y.psi) _ a8 hs.2.2.2.2.2]
    simp only [Planet.nonDimState, Vehicle.entryState, marsWest, Vehicle.mk']
    have : (180.0:ℝ) = 180 := by norm_num
    rw [this]
    field_simp
  have hpi := pi_le_four
  have hpi0 := pi_pos
  have hcos : (9 / 10 : ℝ) ≤ cos s.g := by
    refine le_trans ?_ (one_sub_sq_div_two_le_cos (x := s.g))
    rw [s3]
    have : (7 * π / 180) ^ 2 ≤ (7 * 4 / 180) ^ 2 := by gcongr
    norm_num at this ⊢
    linarith
  rw [hp, s1, s2, s5, s6, cos_zero, cos_pi, c2, c3] at hE
  have hE0 : exitEnergy P s < 0 := by
    rw [hE]
    norm_num
    linarith
  have hcross : 0 < angMom (pos s.r s.theta s.phi)
      (vel s.theta s.phi s.v s.psi s.g + V3.cross (spin P.OMEGA) (pos s.r s.theta s.phi)) := by
    refine lt_of_le_of_ne (V3.norm_nonneg _) fun h0 => ?_
    have h1 := congrArg V3.z (V3.norm_eq_zero.mp h0.symm)
    simp only [pos, vel, along, up, horiz, east, north, spin, V3.cross, V3.add_x, V3.add_y, V3.add_z, V3.smul_x,
      V3.smul_y, V3.smul_z, s4, s5, s6, sin_zero, cos_zero, sin_pi, cos_pi, s1, s2, c3] at h1
    norm_num at h1
    linarith
  obtain ⟨⟨R, U, hco⟩, -⟩ := C146_one_motion "MARS" P hP s hcross
  obtain ⟨A, B, hA, -⟩ := C146_bound_stays "MARS" P hP s hr hE0 hcross R U hco
  refine ⟨P, out, s, A, hP, ho, hs, ?_, hcross, ⟨R, U, hco⟩, hA, fun R U hco t ht => ?_⟩
  · obtain ⟨r, v, q1, q2, -, q4⟩ := (C30_capture_verdict (marsWest P) .strict constIntegrator 1200 0.1 0).1 out ho
    obtain rfl : r = s.r := Option.some.inj (q1.symm.trans hs.1)
    obtain rfl : v = s.v := Option.some.inj (q2.symm.trans hs.2.1)
    refine q4 ?_
    rw [s1, s2, hp, c2]
    norm_num
  · obtain ⟨A', B, hA', -, -, -, q, -⟩ := C146_bound_stays "MARS" P hP s hr hE0 hcross R U hco
    obtain rfl : A' = A := Option.some.inj (hA'.symm.trans hA)
    exact (q t ht).2

end AMAT.Props
