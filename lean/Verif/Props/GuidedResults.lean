import Verif.Props.GuidedTermination
import Verif.Props.OrbitProps

/-
C73, C74, C75, C77: what a guided entry reports, why its entry phase ends, what its predictions depend on, and what it
leaves behind.
-/

noncomputable section

namespace AMAT.Props

open Real AMAT.Spec

/-! ### C73 -/

/-- The vehicle at the end of a guided run differs from the one at its start only in the entry state (and in what `prep`
changes). -/
theorem guided_vehicle {G : GuideParams} {FE : EntryPhase} {FX : ExitPhase} {mode : ScipyMode} {fuel : ℕ} {V : Vehicle}
    {hdotref : Option (List (Option ℝ))} {prep : Vehicle → Vehicle}
    (hprep : ∀ W x, prep (W.setInitialState x) = (prep W).setInitialState x) {tsE tsX dt maxTime : ℝ} {o : GuidedOut}
    (h : Vehicle.guided G FE FX mode fuel V hdotref prep tsE tsX dt maxTime = some (.ok o)) :
    o.fin.V = prep V ∨ ∃ x, o.fin.V = (prep V).setInitialState x := by
  obtain ⟨s0, s, e, J, hr, h1, h2, h3, h4, h5⟩ := guided_inv h
  obtain ⟨out, v, _, _, rfl⟩ := entryStart_inv h1
  have a := entryLoop_invariant (fun s => s.V = V ∨ ∃ x, s.V = V.setInitialState x) (by
    rintro s s' b hs hcy
    obtain ⟨J, x, delta, qref, out, tEnd, J', y, hd, tOld, an, ad, fn, apo, -, -, -, -, -, -, -, -, -, -, -, -, -, rfl, -⟩ :=
      entryCycle_inv hcy
    right
    rcases hs with hs | ⟨z, hs⟩
    · exact ⟨x, by simp only [hs]⟩
    · exact ⟨x, by simp only [hs]; rfl⟩) fuel _ s (Or.inl rfl) h2
  obtain ⟨hk, p, _, _, _, _, rfl⟩ := exitStart_inv h3
  refine exitLoop_invariant (fun s => s.V = prep V ∨ ∃ x, s.V = (prep V).setInitialState x) ?_ fuel _ o.fin ?_ h4
  · rintro s s' b hs hcy
    obtain ⟨x, out, tEnd, y, hd, tOld, -, -, -, -, -, -, rfl, -⟩ := exitCycle_inv hcy
    right
    rcases hs with hs | ⟨z, hs⟩
    · exact ⟨x, by simp only [hs]⟩
    · exact ⟨x, by simp only [hs]; rfl⟩
  · rcases a with a | ⟨z, a⟩
    · left; simp only [a]
    · right; exact ⟨z, by simp only [a, hprep]⟩

/-- The inertial position and velocity (SI) of a recorded point: altitude km, longitude, latitude, planet-relative speed
km/s, heading, flight-path angle (degrees). -/
def recPos (P : Planet) (y : InitState) : V3 :=
  pos (P.RP + 1000 * y.h0Km) (y.theta0Deg * (π / 180)) (y.phi0Deg * (π / 180))

def recVel (P : Planet) (y : InitState) : V3 :=
  vel (y.theta0Deg * (π / 180)) (y.phi0Deg * (π / 180)) (1000 * y.v0Kms) (y.psi0Deg * (π / 180))
    (y.gamma0Deg * (π / 180)) + V3.cross (spin P.OMEGA) (recPos P y)

/-- `y` is the last recorded point of the histories. -/
def LastRecord (H : Hist) (y : InitState) : Prop :=
  H.h.getLast? = some y.h0Km ∧ H.theta.getLast? = some y.theta0Deg ∧ H.phi.getLast? = some y.phi0Deg ∧
  H.v.getLast? = some y.v0Kms ∧ H.psi.getLast? = some y.psi0Deg ∧ H.gamma.getLast? = some y.gamma0Deg

/-- `A` and `B` (km) are apoapsis and periapsis altitude of the two-body orbit through the point `y`: they bracket it and
their radii are the only ones with zero radial speed. -/
def Apsides (P : Planet) (y : InitState) (A B : ℝ) : Prop :=
  P.RP + 1000 * B ≤ V3.norm (recPos P y) ∧ V3.norm (recPos P y) ≤ P.RP + 1000 * A ∧ 0 ≤ P.RP + 1000 * B ∧
  ∀ rho, 0 < rho → (radialSq P.GM (energy P.GM (recPos P y) (recVel P y)) (angMom (recPos P y) (recVel P y)) rho = 0 ↔
    rho = P.RP + 1000 * A ∨ rho = P.RP + 1000 * B)

/-- The results reported for a final record, in terms of the two-body orbit of that record. -/
theorem exitResults_spec (name : String) (G : GuideParams) (s : ExitState) (P : Planet) (hsP : s.V.planet = P)
    (hP : Planet.init name = .ok P)
    (o : GuidedOut) (h : exitResults G s = .ok o) :
    o.fin = s ∧ ∃ y, LastRecord s.hist y ∧
      o.apoapsis = (Vehicle.terminalOf P y).apoapsisAltitudeKm P ∧ o.periapsis = (Vehicle.terminalOf P y).periapsisAltitudeKm P ∧
      o.periapsisRaiseDV = (do let a ← o.apoapsis; let p ← o.periapsis; P.periapsisRaiseDV p a G.targetPeriKm) ∧
      o.apoapsisRaiseDV = (do let a ← o.apoapsis; P.apoapsisRaiseDV G.targetPeriKm a G.targetApoKm) ∧
      (0 < P.RP + 1000 * y.h0Km → recVel P y ≠ 0 → energy P.GM (recPos P y) (recVel P y) < 0 →
        ∃ A B, o.apoapsis = some A ∧ o.periapsis = some B ∧ Apsides P y A B ∧
          (G.targetApoKm ≠ 0 → o.percError = some (100 * (A - G.targetApoKm) / G.targetApoKm)) ∧
          (0 ≤ P.RP + 1000 * G.targetPeriKm → o.periapsisRaiseDV = some
            (visViva P.GM (P.RP + 1000 * A) (P.RP + 1000 * G.targetPeriKm) (P.RP + 1000 * A) -
              visViva P.GM (P.RP + 1000 * A) (P.RP + 1000 * B) (P.RP + 1000 * A))) ∧
          (0 < P.RP + 1000 * G.targetPeriKm → 0 ≤ P.RP + 1000 * G.targetApoKm → o.apoapsisRaiseDV = some
            (visViva P.GM (P.RP + 1000 * G.targetPeriKm) (P.RP + 1000 * G.targetPeriKm) (P.RP + 1000 * G.targetApoKm) -
              visViva P.GM (P.RP + 1000 * G.targetPeriKm) (P.RP + 1000 * G.targetPeriKm) (P.RP + 1000 * A)))) := by
  subst hsP
  unfold exitResults at h
  simp only [except_bind_ok, liftPy_ok, pure, Except.pure, Except.ok.injEq] at h
  obtain ⟨y, hy, rfl⟩ := h
  obtain ⟨l1, l2, l3, l4, l5, l6, _, _⟩ := last_ok.mp hy
  refine ⟨rfl, y, ⟨l1, l2, l3, l4, l5, l6⟩, rfl, rfl, rfl, rfl, ?_⟩
  intro hr hU0 hE
  have k1 : (1E3:ℝ) = 1000 := by norm_num
  have k2 : (180.0:ℝ) = 180 := by norm_num
  have k3 : (100.0:ℝ) = 100 := by norm_num
  set T := Vehicle.terminalOf s.V.planet y with hT
  have t1 : T.r = s.V.planet.RP + 1000 * y.h0Km := by simp only [hT, Vehicle.terminalOf, k1]; ring
  have t2 : T.v = 1000 * y.v0Kms := by simp only [hT, Vehicle.terminalOf, k1]; ring
  have t3 : T.theta = y.theta0Deg * (π / 180) := by simp only [hT, Vehicle.terminalOf, k2]; ring
  have t4 : T.phi = y.phi0Deg * (π / 180) := by simp only [hT, Vehicle.terminalOf, k2]; ring
  have t5 : T.psi = y.psi0Deg * (π / 180) := by simp only [hT, Vehicle.terminalOf, k2]; ring
  have t6 : T.g = y.gamma0Deg * (π / 180) := by simp only [hT, Vehicle.terminalOf, k2]; ring
  rw [← t1] at hr
  have hR : recPos s.V.planet y = pos T.r T.theta T.phi := by rw [recPos, t1, t3, t4]
  obtain ⟨A, B, hA, hB, h1, h2, h3, h4⟩ := C28_apsides name s.V.planet hP T hr (recPos s.V.planet y) (recVel s.V.planet y) hR
    (by rw [recVel, t2, t3, t4, t5, t6]) hU0 hE
  have hRn : V3.norm (recPos s.V.planet y) = T.r := by
    rw [hR]; exact norm_pos_r hr
  have hA0 : 0 < s.V.planet.RP + 1000 * A := lt_of_lt_of_le hr h2
  refine ⟨A, B, hA, hB, ⟨by rw [hRn]; exact h1, by rw [hRn]; exact h2, h3, h4⟩, ?_, ?_, ?_⟩
  · intro h0
    simp only [hA, bind, Option.bind, npDiv, if_neg h0, k3]
    congr 1; ring
  · intro h0
    obtain ⟨dV, e1, e2, _⟩ := C45_periapsis_raise name s.V.planet hP B A G.targetPeriKm hA0 h3 h0
    simp only [hA, hB, bind, Option.bind, e1, e2]
  · intro h0 h0'
    obtain ⟨dV, e1, e2, _⟩ := C45_apoapsis_raise name s.V.planet hP G.targetPeriKm A G.targetApoKm h0 hA0.le h0'
    simp only [hA, bind, Option.bind, e1, e2]

/-- Whichever guided entry is flown, its results are those of its final record, on the vehicle's own planet. -/
theorem guided_results {G : GuideParams} {mode : ScipyMode} {I I' : Integrator} {fuel : ℕ} {V : Vehicle}
    {hdotref : Option (List (Option ℝ))} {ts tsX dt maxTime : ℝ} {o : GuidedOut}
    (ho : Vehicle.propogateGuidedEntry G mode I fuel V hdotref ts dt maxTime = some (.ok o) ∨
      Vehicle.propogateGuidedEntry2 G mode I I' fuel V hdotref ts dt maxTime = some (.ok o) ∨
      Vehicle.propogateGuidedEntryD G mode I fuel V hdotref ts tsX dt maxTime = some (.ok o) ∨
      Vehicle.propogateGuidedEntryD2 G mode I' fuel V hdotref ts tsX dt maxTime = some (.ok o)) :
    exitResults G o.fin = .ok o ∧ o.fin.V.planet = V.planet := by
  have key : ∀ {FE FX prep V' tsE tsX'}, (∀ W x, prep (Vehicle.setInitialState W x) = (prep W).setInitialState x) →
      (prep V').planet = V.planet → Vehicle.guided G FE FX mode fuel V' hdotref prep tsE tsX' dt maxTime = some (.ok o) →
      exitResults G o.fin = .ok o ∧ o.fin.V.planet = V.planet := by
    intro FE FX prep V' tsE tsX' hprep hpl h
    refine ⟨?_, ?_⟩
    · obtain ⟨s0, s, e, J, hr, h1, h2, h3, h4, h5⟩ := guided_inv h
      exact h5
    · rcases guided_vehicle hprep h with h | ⟨x, h⟩ <;> rw [h] <;> exact hpl
  rcases ho with ho | ho | ho | ho
  · exact key (fun _ _ => rfl) rfl ho
  · exact key (fun _ _ => rfl) rfl ho
  · exact key (fun _ _ => rfl) rfl ho
  · exact key (fun _ _ => rfl) rfl ho

/-- C73: for each of the four guided simulations, when the last recorded point of the returned histories is on a bound
orbit, the reported apoapsis and periapsis are the apsides of the two-body orbit through that point, the reported error is
the relative error of that apoapsis in percent, and the reported costs are the vis-viva speed changes that first move this
orbit's periapsis and then its apoapsis to the targets. -/
theorem C73_reported_orbit (name : String) (G : GuideParams) (mode : ScipyMode) (I I' : Integrator) (fuel : ℕ) (V : Vehicle)
    (hP : Planet.init name = .ok V.planet) (hdotref : Option (List (Option ℝ))) (ts tsX dt maxTime : ℝ) (o : GuidedOut)
    (ho : Vehicle.propogateGuidedEntry G mode I fuel V hdotref ts dt maxTime = some (.ok o) ∨
      Vehicle.propogateGuidedEntry2 G mode I I' fuel V hdotref ts dt maxTime = some (.ok o) ∨
      Vehicle.propogateGuidedEntryD G mode I fuel V hdotref ts tsX dt maxTime = some (.ok o) ∨
      Vehicle.propogateGuidedEntryD2 G mode I' fuel V hdotref ts tsX dt maxTime = some (.ok o)) :
    ∃ y, LastRecord o.fin.hist y ∧
      (0 < V.planet.RP + 1000 * y.h0Km → recVel V.planet y ≠ 0 →
        energy V.planet.GM (recPos V.planet y) (recVel V.planet y) < 0 →
        ∃ A B, o.apoapsis = some A ∧ o.periapsis = some B ∧ Apsides V.planet y A B ∧
          (G.targetApoKm ≠ 0 → o.percError = some (100 * (A - G.targetApoKm) / G.targetApoKm)) ∧
          (0 ≤ V.planet.RP + 1000 * G.targetPeriKm → o.periapsisRaiseDV = some
            (visViva V.planet.GM (V.planet.RP + 1000 * A) (V.planet.RP + 1000 * G.targetPeriKm) (V.planet.RP + 1000 * A) -
              visViva V.planet.GM (V.planet.RP + 1000 * A) (V.planet.RP + 1000 * B) (V.planet.RP + 1000 * A))) ∧
          (0 < V.planet.RP + 1000 * G.targetPeriKm → 0 ≤ V.planet.RP + 1000 * G.targetApoKm → o.apoapsisRaiseDV = some
            (visViva V.planet.GM (V.planet.RP + 1000 * G.targetPeriKm) (V.planet.RP + 1000 * G.targetPeriKm)
                (V.planet.RP + 1000 * G.targetApoKm) -
              visViva V.planet.GM (V.planet.RP + 1000 * G.targetPeriKm) (V.planet.RP + 1000 * G.targetPeriKm)
                (V.planet.RP + 1000 * A)))) := by
  obtain ⟨h, hpl⟩ := guided_results ho
  obtain ⟨_, y, hy, _, _, _, _, hb⟩ := exitResults_spec name G o.fin V.planet hpl hP o h
  exact ⟨y, hy, hb⟩

/-- The final record of `guided_example` and its inertial motion. -/
theorem example_record {P : Planet} (hP : Planet.init "MARS" = .ok P) {H : Hist} {v0 : ℝ} {y : InitState}
    (hl : H.last 0 = .ok ⟨119, 0, 0, v0, 0, -90, 0, 0⟩) (hy : LastRecord H y) :
    V3.norm (recPos P y) = 3508500 ∧ 0 < P.RP + 1000 * y.h0Km ∧ recVel P y ≠ 0 ∧
    V3.norm (recVel P y) ^ 2 = (1000 * v0) ^ 2 + (P.OMEGA * 3508500) ^ 2 ∧ y.h0Km = 119 ∧
    Vehicle.terminalOf P y = Vehicle.terminalOf P ⟨119, 0, 0, v0, 0, -90, 0, 0⟩ := by
  have hR : P.RP = 3389.5e3 := by simp [Planet.init] at hP; subst hP; rfl
  have hO : P.OMEGA ≠ 0 := by
    have : P.OMEGA = 7088253e-11 := by simp [Planet.init] at hP; subst hP; rfl
    rw [this]; norm_num
  obtain ⟨l1, l2, l3, l4, l5, l6, _, _⟩ := last_ok.mp hl
  obtain ⟨m1, m2, m3, m4, m5, m6⟩ := hy
  rw [l1] at m1; rw [l2] at m2; rw [l3] at m3; rw [l4] at m4; rw [l5] at m5; rw [l6] at m6
  simp only [Option.some.injEq] at m1 m2 m3 m4 m5 m6
  have hp : recPos P y = ⟨3508500, 0, 0⟩ := by
    simp only [recPos, pos, up, ← m1, ← m2, ← m3, hR]
    ext
    · simp; norm_num
    · simp
    · simp
  have hv : recVel P y = ⟨-(1000 * v0), P.OMEGA * 3508500, 0⟩ := by
    have e : (-90:ℝ) * (π / 180) = -(π / 2) := by ring
    simp only [recVel, hp, vel, along, up, horiz, east, north, spin, V3.cross, ← m2, ← m3, ← m4, ← m5, ← m6, e, sin_neg,
      cos_neg, sin_pi_div_two, cos_pi_div_two]
    ext <;> simp
  refine ⟨?_, ?_, ?_, ?_, m1.symm, ?_⟩
  · rw [hp]; simp only [V3.norm, V3.dot]
    rw [show (3508500:ℝ) * 3508500 + 0 * 0 + 0 * 0 = 3508500 ^ 2 by norm_num, Real.sqrt_sq (by norm_num)]
  · rw [hR, ← m1]; norm_num
  · rw [hv]; intro h
    have := congrArg V3.y h
    simp at this
    exact hO this
  · rw [hv]; simp only [V3.norm, V3.dot]
    rw [Real.sq_sqrt (by nlinarith [mul_self_nonneg (1000 * v0), mul_self_nonneg (P.OMEGA * 3508500)])]
    ring
  · simp only [Vehicle.terminalOf, ← m1, ← m2, ← m3, ← m4, ← m5, ← m6]

theorem mars_constants {P : Planet} (hP : Planet.init "MARS" = .ok P) :
    P.GM = 42828370000000 ∧ P.OMEGA = 7088253 / 100000000000 := by
  have h1 : P.GM = 4282837e7 := by simp [Planet.init] at hP; subst hP; rfl
  have h2 : P.OMEGA = 7088253e-11 := by simp [Planet.init] at hP; subst hP; rfl
  exact ⟨by rw [h1]; norm_num, by rw [h2]; norm_num⟩

/-- Case for `C73_reported_orbit`: a guided run at Mars ending on a bound orbit. -/
theorem C73_example : ∃ (V : Vehicle) (G : GuideParams) (I : Integrator) (o : GuidedOut) (y : InitState),
    Planet.init "MARS" = .ok V.planet ∧ OdeintLike I ∧
    Vehicle.propogateGuidedEntry G .strict I 3 V none 1 0.1 600 = some (.ok o) ∧ LastRecord o.fin.hist y ∧
    0 < V.planet.RP + 1000 * y.h0Km ∧ recVel V.planet y ≠ 0 ∧
    energy V.planet.GM (recPos V.planet y) (recVel V.planet y) < 0 := by
  obtain ⟨V, G, I, o, hP, hI, _, ho, _, hi, _, hl, _⟩ := guided_example 4 (by norm_num)
  rw [hi] at hl
  obtain ⟨l1, l2, l3, l4, l5, l6, _, _⟩ := last_ok.mp hl
  have hy : LastRecord o.fin.hist ⟨119, 0, 0, 4, 0, -90, 0, 0⟩ := ⟨l1, l2, l3, l4, l5, l6⟩
  obtain ⟨e1, e2, e3, e4, _⟩ := example_record hP hl hy
  refine ⟨V, G, I, o, _, hP, hI, ho, hy, e2, e3, ?_⟩
  rw [energy, e4, e1]
  obtain ⟨hG, hO⟩ := mars_constants hP
  rw [hG, hO]
  norm_num

/-! ### C76 -/

theorem terminalOf_vectors (P : Planet) (y : InitState) :
    (Vehicle.terminalOf P y).rVec = recPos P y ∧ (Vehicle.terminalOf P y).vIe P = recVel P y ∧
    (Vehicle.terminalOf P y).r = P.RP + 1000 * y.h0Km := by
  have k1 : (1E3:ℝ) = 1000 := by norm_num
  have k2 : (180.0:ℝ) = 180 := by norm_num
  have t1 : (Vehicle.terminalOf P y).r = P.RP + 1000 * y.h0Km := by simp only [Vehicle.terminalOf, k1]; ring
  have t2 : (Vehicle.terminalOf P y).v = 1000 * y.v0Kms := by simp only [Vehicle.terminalOf, k1]; ring
  have t3 : (Vehicle.terminalOf P y).theta = y.theta0Deg * (π / 180) := by simp only [Vehicle.terminalOf, k2]; ring
  have t4 : (Vehicle.terminalOf P y).phi = y.phi0Deg * (π / 180) := by simp only [Vehicle.terminalOf, k2]; ring
  have t5 : (Vehicle.terminalOf P y).psi = y.psi0Deg * (π / 180) := by simp only [Vehicle.terminalOf, k2]; ring
  have t6 : (Vehicle.terminalOf P y).g = y.gamma0Deg * (π / 180) := by simp only [Vehicle.terminalOf, k2]; ring
  have hr : (Vehicle.terminalOf P y).rVec = recPos P y := by rw [rVec_eq, recPos, t1, t3, t4]
  refine ⟨hr, ?_, t1⟩
  rw [vIe_eq, ← rVec_eq, hr, recVel, t2, t3, t4, t5, t6]

/-- The manoeuvre formulas on apsis altitudes of a hyperbola (negative apoapsis radius). -/
theorem escape_costs (P : Planet) (hGM : 0 < P.GM) (A B tp ta : ℝ) (hra0 : P.RP + 1000 * A < 0) (hb0 : 0 ≤ P.RP + 1000 * B)
    (hb1 : P.RP + 1000 * B < -(P.RP + 1000 * A)) (h0 : 0 < P.RP + 1000 * tp)
    (h1 : P.RP + 1000 * tp < -(P.RP + 1000 * A)) :
    (∃ dV, P.periapsisRaiseDV B A tp = some dV) ∧
    (0 ≤ P.RP + 1000 * ta → ∃ dV, P.apoapsisRaiseDV tp A ta = some dV) := by
  have k1 : (1E3:ℝ) = 1000 := by norm_num
  have key : ∀ ra rx : ℝ, ra < 0 → 0 ≤ rx → rx < -ra → 0 ≤ 2 * (-P.GM / (ra + rx)) + 2 * P.GM / ra := by
    intro ra rx h1 h2 h3
    have e1 : 2 * (-P.GM / (ra + rx)) + 2 * P.GM / ra = 2 * P.GM * (rx / (ra * (ra + rx))) := by
      have : ra + rx ≠ 0 := by linarith
      have := h1.ne
      field_simp; ring
    rw [e1]
    have : 0 < ra * (ra + rx) := mul_pos_of_neg_of_neg h1 (by linarith)
    positivity
  constructor
  · have r1 := key (P.RP + 1000 * A) (P.RP + 1000 * B) hra0 hb0 hb1
    have r2 := key (P.RP + 1000 * A) (P.RP + 1000 * tp) hra0 h0.le h1
    rw [show P.RP + 1000 * A + (P.RP + 1000 * B) = P.RP + A * 1000 + B * 1000 + P.RP by ring,
      show P.RP + 1000 * A = P.RP + A * 1000 by ring] at r1
    rw [show P.RP + 1000 * A + (P.RP + 1000 * tp) = P.RP + A * 1000 + tp * 1000 + P.RP by ring,
      show P.RP + 1000 * A = P.RP + A * 1000 by ring] at r2
    simp only [Planet.periapsisRaiseDV, npSqrt, k1, if_pos r1, if_pos r2]
    exact ⟨_, rfl⟩
  · intro h2
    have q1 : 0 ≤ 2 * (-P.GM / (P.RP + A * 1000 + tp * 1000 + P.RP)) + 2 * P.GM / (tp * 1000 + P.RP) := by
      have d1 : P.RP + A * 1000 + tp * 1000 + P.RP < 0 := by linarith
      have := div_pos_of_neg_of_neg (neg_lt_zero.mpr hGM) d1
      have : 0 < 2 * P.GM / (tp * 1000 + P.RP) := div_pos (by linarith) (by linarith)
      linarith
    have q2 : 0 ≤ 2 * (-P.GM / (ta * 1000 + P.RP + tp * 1000 + P.RP)) + 2 * P.GM / (tp * 1000 + P.RP) := by
      have d1 : 0 < tp * 1000 + P.RP := by linarith
      have : P.GM / (ta * 1000 + P.RP + tp * 1000 + P.RP) ≤ P.GM / (tp * 1000 + P.RP) :=
        div_le_div_of_nonneg_left hGM.le d1 (by linarith)
      rw [neg_div, mul_div_assoc]
      linarith
    simp only [Planet.apoapsisRaiseDV, npSqrt, k1, if_pos q1, if_pos q2]
    exact ⟨_, rfl⟩

/-- C76 (finding): when the last recorded point is on an escape trajectory (positive energy), the reported apoapsis lies
below the planet's centre, and a finite cost for raising the periapsis of this non-existent ellipse is reported, provided
the target periapsis radius is below the (meaningless) magnitude of the apoapsis radius; likewise for the apoapsis. -/
theorem C76_escape_cost_reported (name : String) (G : GuideParams) (mode : ScipyMode) (I I' : Integrator) (fuel : ℕ)
    (V : Vehicle) (hP : Planet.init name = .ok V.planet) (hdotref : Option (List (Option ℝ))) (ts tsX dt maxTime : ℝ)
    (o : GuidedOut)
    (ho : Vehicle.propogateGuidedEntry G mode I fuel V hdotref ts dt maxTime = some (.ok o) ∨
      Vehicle.propogateGuidedEntry2 G mode I I' fuel V hdotref ts dt maxTime = some (.ok o) ∨
      Vehicle.propogateGuidedEntryD G mode I fuel V hdotref ts tsX dt maxTime = some (.ok o) ∨
      Vehicle.propogateGuidedEntryD2 G mode I' fuel V hdotref ts tsX dt maxTime = some (.ok o)) :
    ∃ y, LastRecord o.fin.hist y ∧
      (0 < V.planet.RP + 1000 * y.h0Km → 0 < energy V.planet.GM (recPos V.planet y) (recVel V.planet y) →
        ∃ A, o.apoapsis = some A ∧
          V.planet.RP + 1000 * A ≤ -(V.planet.GM / energy V.planet.GM (recPos V.planet y) (recVel V.planet y)) ∧
          (0 < V.planet.RP + 1000 * G.targetPeriKm → V.planet.RP + 1000 * G.targetPeriKm < -(V.planet.RP + 1000 * A) →
            ∃ dV, o.periapsisRaiseDV = some dV ∧
              (0 ≤ V.planet.RP + 1000 * G.targetApoKm → ∃ dV', o.apoapsisRaiseDV = some dV'))) := by
  obtain ⟨h, hpl⟩ := guided_results ho
  obtain ⟨_, y, hy, hA, hB, hD1, hD2, _⟩ := exitResults_spec name G o.fin V.planet hpl hP o h
  refine ⟨y, hy, fun hr hE => ?_⟩
  obtain ⟨_, _, hGM, _⟩ := C01_planet_consistent name _ hP
  set P := V.planet with hPd
  obtain ⟨hrv, hvv, hrr⟩ := terminalOf_vectors P y
  set T := Vehicle.terminalOf P y with hT
  have hU : T.vIe P ≠ 0 := by
    rw [hvv]; intro h0
    rw [energy, h0] at hE
    have : V3.norm (0 : V3) = 0 := V3.norm_eq_zero.mpr rfl
    rw [this] at hE
    have : 0 ≤ P.GM / V3.norm (recPos P y) := div_nonneg hGM.le (V3.norm_nonneg _)
    linarith
  obtain ⟨g, e, hg, he0, he2, hEe, hh, _, hel⟩ := elements_eq P T hGM (by rw [hrr]; exact hr) hU
  rw [hrv, hvv] at he2 hel
  set E := energy P.GM (recPos P y) (recVel P y) with hEd
  have l3 : (1.0E3:ℝ) = 1000 := by norm_num
  have hsm : P.semiMajorAxisScalar E = some (-P.GM / (2 * E)) := by
    unfold Planet.semiMajorAxisScalar; rw [if_neg hE.ne', Lits.l10]; congr 1; ring
  rw [hsm] at hel
  set a := -P.GM / (2 * E) with ha
  have ha0 : a < 0 := div_neg_of_neg_of_pos (by linarith) (by linarith)
  have he1 : 1 ≤ e := by
    have : 0 ≤ 2 * E * angMom (recPos P y) (recVel P y) ^ 2 / P.GM ^ 2 := by positivity
    nlinarith
  have hA' : o.apoapsis = some ((a * (1 + e) - P.RP) / 1000) := by
    rw [hA]; unfold Terminal.apoapsisAltitudeKm; rw [hel, l3, Lits.l10]; rfl
  have hB' : o.periapsis = some ((a * (1 - e) - P.RP) / 1000) := by
    rw [hB]; unfold Terminal.periapsisAltitudeKm; rw [hel, l3, Lits.l10]; rfl
  set A := (a * (1 + e) - P.RP) / 1000 with hAd
  set B := (a * (1 - e) - P.RP) / 1000 with hBd
  have hra : P.RP + 1000 * A = a * (1 + e) := by rw [hAd]; ring
  have hrb : P.RP + 1000 * B = a * (1 - e) := by rw [hBd]; ring
  have hra0 : P.RP + 1000 * A < 0 := by rw [hra]; nlinarith
  have h2a : 2 * a = -(P.GM / E) := by rw [ha]; field_simp
  refine ⟨A, hA', by rw [hra, ← h2a]; nlinarith, fun h0 h1 => ?_⟩
  obtain ⟨⟨dV, hdV⟩, hdV'⟩ := escape_costs P hGM A B G.targetPeriKm G.targetApoKm hra0
    (by rw [hrb]; exact mul_nonneg_of_nonpos_of_nonpos ha0.le (by linarith only [he1]))
    (by rw [hrb, hra]; linarith only [ha0]) h0 h1
  refine ⟨dV, by rw [hD1, hA', hB']; exact hdV, fun h2 => ?_⟩
  obtain ⟨dV', hdV'⟩ := hdV' h2
  exact ⟨dV', by rw [hD2, hA']; exact hdV'⟩

/-- C76 (finding), concrete: a guided run at Mars that ends at 5.2 km/s relative speed, above escape speed, and reports
finite manoeuvre costs to the target orbit of 250 km by 2000 km.  Case for `C76_escape_cost_reported`. -/
theorem C76_escape_example : ∃ (V : Vehicle) (G : GuideParams) (I : Integrator) (o : GuidedOut) (y : InitState)
    (dV dV' : ℝ), Planet.init "MARS" = .ok V.planet ∧ OdeintLike I ∧
    Vehicle.propogateGuidedEntry G .strict I 3 V none 1 0.1 600 = some (.ok o) ∧ LastRecord o.fin.hist y ∧
    0 < energy V.planet.GM (recPos V.planet y) (recVel V.planet y) ∧ G.targetPeriKm = 250 ∧ G.targetApoKm = 2000 ∧
    o.periapsisRaiseDV = some dV ∧ o.apoapsisRaiseDV = some dV' := by
  obtain ⟨V, G, I, o, hP, hI, _, ho, _, hi, _, hl, _, hp, ha⟩ := guided_example 5.2 (by norm_num)
  rw [hi] at hl
  obtain ⟨y, hy, hes⟩ := C76_escape_cost_reported "MARS" G .strict I I 3 V hP none 1 1 0.1 600 o (Or.inl ho)
  obtain ⟨e1, e2, e3, e4, _⟩ := example_record hP hl hy
  have hR : V.planet.RP = 3389500 := by
    have : V.planet.RP = 3389.5e3 := by simp [Planet.init] at hP; rw [← hP]; rfl
    rw [this]; norm_num
  obtain ⟨hG, hO⟩ := mars_constants hP
  have hE : 0 < energy V.planet.GM (recPos V.planet y) (recVel V.planet y) := by
    rw [energy, e4, e1, hG, hO]; norm_num
  have hE2 : energy V.planet.GM (recPos V.planet y) (recVel V.planet y) < 2000000 := by
    rw [energy, e4, e1, hG, hO]; norm_num
  obtain ⟨A, hA, hA2, hD⟩ := hes e2 hE
  have : 42828370000000 / 2000000 < V.planet.GM / energy V.planet.GM (recPos V.planet y) (recVel V.planet y) := by
    rw [hG] at hE hE2 ⊢
    exact div_lt_div_of_pos_left (by norm_num) hE hE2
  obtain ⟨dV, h1, h2⟩ := hD (by rw [hR, hp]; norm_num) (by rw [hR, hp]; rw [hR] at hA2; linarith)
  obtain ⟨dV', h3⟩ := h2 (by rw [hR, ha]; norm_num)
  exact ⟨V, G, I, o, y, dV, dV', hP, hI, ho, hy, hE, hp, ha, h1, h3⟩

/-! ### C77 -/

/-- C77, the part that holds: a guided entry changes nothing of the vehicle but its entry state, and (drag modulation)
the ballistic coefficient with the drag coefficient that belongs to it. -/
theorem C77_rest_preserved_partial (G : GuideParams) (mode : ScipyMode) (I I' : Integrator) (fuel : ℕ) (V : Vehicle)
    (hdotref : Option (List (Option ℝ))) (ts tsX dt maxTime : ℝ) (o : GuidedOut) :
    (Vehicle.propogateGuidedEntry G mode I fuel V hdotref ts dt maxTime = some (.ok o) ∨
      Vehicle.propogateGuidedEntry2 G mode I I' fuel V hdotref ts dt maxTime = some (.ok o) →
      ∃ i r, o.fin.V = { V with init := i, initRef := r }) ∧
    (Vehicle.propogateGuidedEntryD G mode I fuel V hdotref ts tsX dt maxTime = some (.ok o) ∨
      Vehicle.propogateGuidedEntryD2 G mode I' fuel V hdotref ts tsX dt maxTime = some (.ok o) →
      ∃ i r b c, o.fin.V = { V with init := i, initRef := r, beta := b, CD := c }) := by
  constructor
  · rintro (h | h) <;>
    · rcases guided_vehicle (fun _ _ => rfl) h with h | ⟨x, h⟩
      · exact ⟨V.init, V.initRef, h⟩
      · exact ⟨_, _, h⟩
  · rintro (h | h) <;>
    · rcases guided_vehicle (fun _ _ => rfl) h with h | ⟨x, h⟩
      · exact ⟨V.init, V.initRef, _, _, h⟩
      · exact ⟨_, _, _, _, h⟩

/-- C77 (finding): the reference entry state does not survive a guided entry: after this run from 100 km it is the state
at 119 km with which the last segment began.  Case for `C77_rest_preserved_partial`. -/
theorem C77_reference_state_lost : ∃ (V : Vehicle) (G : GuideParams) (I : Integrator) (o : GuidedOut),
    Planet.init "MARS" = .ok V.planet ∧ OdeintLike I ∧
    Vehicle.propogateGuidedEntry G .strict I 3 V none 1 0.1 600 = some (.ok o) ∧
    V.initRef.h0Km = 100 ∧ o.fin.V.initRef.h0Km = 119 := by
  obtain ⟨V, G, I, o, hP, hI, _, ho, _, hi, hr, hl, hf, _⟩ := guided_example 4 (by norm_num)
  exact ⟨V, G, I, o, hP, hI, ho, by rw [hr, hi], hf⟩

end AMAT.Props
