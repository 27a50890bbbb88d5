import Verif.Lemmas.Maneuver
import Verif.Props.EntryAtmosphere

/-
Property C57: deflection manoeuvres.
-/

noncomputable section

open Classical

namespace AMAT.Props

open Real

theorem probeOrbiter_inv {name : String} {v : V3} {rp psi rs ps ρ : ℝ} {hEI : Option ℝ} {D : ProbeOrbiter}
    (hD : ProbeOrbiter.init name v rp psi hEI rs ps ρ = .ok D) :
    Planet.init name = .ok D.P ∧ Approach.init name v rp psi true hEI = .ok D.probe ∧
      Approach.init name v rs ps false none = .ok D.space ∧ D.rDvRp = ρ := by
  unfold ProbeOrbiter.init at hD
  cases hP : Planet.init name with
  | error e => rw [hP] at hD; simp [bind, Except.bind] at hD
  | ok P =>
    cases hA : Approach.init name v rp psi true hEI with
    | error e => rw [hP, hA] at hD; simp [bind, Except.bind] at hD
    | ok A =>
      cases hS : Approach.init name v rs ps false none with
      | error e => rw [hP, hA, hS] at hD; simp [bind, Except.bind] at hD
      | ok S =>
        rw [hP, hA, hS] at hD
        simp [bind, Except.bind, pure, Except.pure] at hD
        subst hD
        exact ⟨rfl, rfl, rfl, rfl⟩

theorem probeProbe_inv {name : String} {v : V3} {rp psi rs ps ρ : ℝ} {hEI hE2 : Option ℝ} {D : ProbeProbe}
    (hD : ProbeProbe.init name v rp psi hEI rs ps hE2 ρ = .ok D) :
    Planet.init name = .ok D.P ∧ Approach.init name v rp psi true hEI = .ok D.probe1 ∧
      Approach.init name v rs ps true hE2 = .ok D.probe2 ∧ D.rDvRp = ρ := by
  unfold ProbeProbe.init at hD
  cases hP : Planet.init name with
  | error e => rw [hP] at hD; simp [bind, Except.bind] at hD
  | ok P =>
    cases hA : Approach.init name v rp psi true hEI with
    | error e => rw [hP, hA] at hD; simp [bind, Except.bind] at hD
    | ok A =>
      cases hS : Approach.init name v rs ps true hE2 with
      | error e => rw [hP, hA, hS] at hD; simp [bind, Except.bind] at hD
      | ok S =>
        rw [hP, hA, hS] at hD
        simp [bind, Except.bind, pure, Except.pure] at hD
        subst hD
        exact ⟨rfl, rfl, rfl, rfl⟩

theorem orbiterOrbiter_inv {name : String} {v : V3} {rp psi rs ps ρ : ℝ} {D : OrbiterOrbiter}
    (hD : OrbiterOrbiter.init name v rp psi rs ps ρ = .ok D) :
    Planet.init name = .ok D.P ∧ Approach.init name v rp psi false none = .ok D.space1 ∧
      Approach.init name v rs ps false none = .ok D.space2 ∧ D.rDvRp = ρ := by
  unfold OrbiterOrbiter.init at hD
  cases hP : Planet.init name with
  | error e => rw [hP] at hD; simp [bind, Except.bind] at hD
  | ok P =>
    cases hA : Approach.init name v rp psi false none with
    | error e => rw [hP, hA] at hD; simp [bind, Except.bind] at hD
    | ok A =>
      cases hS : Approach.init name v rs ps false none with
      | error e => rw [hP, hA, hS] at hD; simp [bind, Except.bind] at hD
      | ok S =>
        rw [hP, hA, hS] at hD
        simp [bind, Except.bind, pure, Except.pure] at hD
        subst hD
        exact ⟨rfl, rfl, rfl, rfl⟩

/-- Two approaches with the same planet and arrival velocity. -/
theorem same_arrival {name : String} {v : V3} {rp psi rs ps : ℝ} {b1 b2 : Bool} {h1 h2 : Option ℝ} {A S : Approach} {P : Planet}
    (hP : Planet.init name = .ok P)
    (hA : Approach.init name v rp psi b1 h1 = .ok A) (hS : Approach.init name v rs ps b2 h2 = .ok S) :
    A.P = P ∧ S.P = P ∧ A.vInfIcrfKms = v ∧ S.vInfIcrfKms = v ∧ A.rp = rp ∧ S.rp = rs ∧ A.psi = psi ∧ S.psi = ps := by
  obtain ⟨P1, hP1, a1, a2, a3, a4, -⟩ := approach_init_inv hA
  obtain ⟨P2, hP2, s1, s2, s3, s4, -⟩ := approach_init_inv hS
  rw [hP] at hP1 hP2
  injection hP1 with hP1
  injection hP2 with hP2
  exact ⟨a1.trans hP1.symm, s1.trans hP2.symm, a2, s2, a3, s3, a4, s4⟩

theorem core_of {A : Approach} {name : String} {P : Planet} (hP : Planet.init name = .ok P) (hAP : A.P = P) {v : V3} (hv : v ≠ 0)
    (hAv : A.vInfIcrfKms = v) (hrp : 0 < A.rp) : ∃ V e b h d u w, ApproachCore A V e b h d u w :=
  approach_core A (by rw [hAP]; exact planet_gm_pos hP) (by rw [hAv]; exact hv) hrp

theorem core_w {A : Approach} {V e b h : ℝ} {d u w Hv : V3} (H : ApproachCore A V e b h d u w) (hH : A.hVec = some Hv)
    (hne : Hv.x ≠ 0 ∨ Hv.y ≠ 0) : w.x ≠ 0 ∨ w.y ≠ 0 := by
  have h1 := H.hhv
  rw [hH] at h1
  have hHw : Hv = (A.rp * V * sin b) • w := Option.some.inj h1
  rw [hHw] at hne
  rcases hne with h | h
  · left; exact right_ne_zero_of_mul h
  · right; exact right_ne_zero_of_mul h

theorem rVecDvUnit_eq {A : Approach} {r : ℝ} {R : V3} (hR : Maneuver.rVecDv A r = some R) (hr : 0 < r) (hn : V3.norm R = r) :
    Maneuver.rVecDvUnit A r = some ((1 / r) • R) := by
  unfold Maneuver.rVecDvUnit
  rw [hR]
  simp only [bind, Option.bind]
  unfold npUnit
  rw [hn, if_neg hr.ne']

/-! ### C57: probe and orbiter -/

/-- C57 for `ProbeOrbiterDeflection`: for every planet, arrival velocity, positive periapsis radii and manoeuvre radius
beyond the probe's periapsis (probe orbit not in the equatorial plane, see C49):
the probe's velocity at the manoeuvre point is the one of its arrival hyperbola and carries it by two-body motion to its
periapsis in `TOF_probe` days; the orbiter's velocity has the energy of the arrival and carries it from the same point to
its own periapsis in `TOF_space` days unless the two points are in line with the planet; the manoeuvre is the difference
of the two velocities. -/
theorem C57_probe_orbiter (name : String) (v : V3) (rp psi rs ps ρ : ℝ) (hEI : Option ℝ) (D : ProbeOrbiter) (Hv : V3)
    (hD : ProbeOrbiter.init name v rp psi hEI rs ps ρ = .ok D) (hv : v ≠ 0) (hrp : 0 < rp) (hrs : 0 < rs)
    (hH : D.probe.hVec = some Hv) (hne : Hv.x ≠ 0 ∨ Hv.y ≠ 0) (hr : rp < ρ * D.P.RP) :
    ∃ (R1 V1 Rp Rs : V3) (T1 th : ℝ), D.rVec = some R1 ∧ V3.norm R1 = ρ * D.P.RP ∧
      D.probe.rpVec = some Rp ∧ V3.norm Rp = rp ∧ D.space.rpVec = some Rs ∧ V3.norm Rs = rs ∧
      D.vDvProbe = some V1 ∧ D.tofProbeDays = some T1 ∧ 0 < T1 ∧
      Maneuver.thetaDv D.probe D.rDv = some th ∧ D.probe.velVec th = some V1 ∧ V3.dot R1 V1 < 0 ∧
      V3.norm V1 ^ 2 / 2 - D.P.GM / V3.norm R1 = (V3.norm v * 1e3) ^ 2 / 2 ∧
      Spec.Transfer D.P.GM R1 V1 Rp (T1 * 86400) ∧
      (V3.cross R1 Rs ≠ 0 →
        ∃ (V2 : V3) (T2 : ℝ), D.vDvSpace = some V2 ∧ D.tofSpaceDays = some T2 ∧ 0 < T2 ∧
          V3.norm V2 ^ 2 / 2 - D.P.GM / V3.norm R1 = (V3.norm v * 1e3) ^ 2 / 2 ∧
          Spec.Transfer D.P.GM R1 V2 Rs (T2 * 86400) ∧
          D.dvVec = some (V2 - V1) ∧ D.dvMag = some (V3.norm (V2 - V1))) := by
  obtain ⟨hP, hA, hS, hρ⟩ := probeOrbiter_inv hD
  obtain ⟨aP, sP, av, sv, arp, srp, -, -⟩ := same_arrival hP hA hS
  obtain ⟨V, e, b, h, d, u, w, H⟩ := core_of hP aP hv av (by rw [arp]; exact hrp)
  obtain ⟨V', e', b', h', d', u', w', H'⟩ := core_of hP sP hv sv (by rw [srp]; exact hrs)
  have hw := core_w H hH hne
  have hrd : D.rDv = ρ * D.P.RP := by unfold ProbeOrbiter.rDv; rw [hρ]
  rw [← hrd] at hr
  obtain ⟨a, n, k, δ, L, -⟩ := leg_core H (r := D.rDv) (by rw [arp]; exact hr)
  have hr0 := L.rpos
  have hR1 := L.rvec H hw
  have hRn := L.rnorm H
  obtain ⟨l1, l2, l3, l4, l5, l6, l7⟩ := Core.laws H L.den'
  have hrad : h ^ 2 / D.probe.P.GM / (1 + e * cos (-δ)) = D.rDv := by rw [L.semi, cos_neg, ← L.hr]
  rw [hrad] at l5 l6
  have hsd : 0 < sin δ := sin_pos_of_pos_of_lt_pi L.d0 L.dpi
  have hV1 : D.vDvProbe = some (cVel (D.probe.P.GM / h) e u (V3.cross w u) (-δ)) := by
    unfold ProbeOrbiter.vDvProbe ProbeOrbiter.rVec
    rw [hR1]
    simp only [bind, Option.bind]
    exact L.vProbe_own H
  obtain ⟨T, hT, hT0, hTr⟩ := L.motion H
  have hvel : D.probe.velVec (-δ) = some (cVel (D.probe.P.GM / h) e u (V3.cross w u) (-δ)) :=
    Core.vel_eq H hw (by rw [sin_neg]; linarith) L.den'
  have hVe : V = V3.norm v * 1e3 := by rw [H.hV]; unfold Approach.vInfMag; rw [av]
  have hVe' : V' = V3.norm v * 1e3 := by rw [H'.hV]; unfold Approach.vInfMag; rw [sv]
  have hru := rVecDvUnit_eq hR1 hr0 hRn
  set R1 := cPos (h ^ 2 / D.probe.P.GM) e u (V3.cross w u) (-δ) with hR1d
  set V1 := cVel (D.probe.P.GM / h) e u (V3.cross w u) (-δ) with hV1d
  refine ⟨R1, V1, D.probe.rp • u, D.space.rp • u', T, -δ, hR1, by rw [hRn, hrd], LegCore.rpVec H, ?_, LegCore.rpVec H', ?_, hV1, hT,
    hT0, L.th, hvel, ?_, ?_, ?_, ?_⟩
  · rw [V3.norm_smul, V3.norm_of_dot_one H.uu, mul_one, arp, abs_of_pos hrp]
  · rw [V3.norm_smul, V3.norm_of_dot_one H'.uu, mul_one, srp, abs_of_pos hrs]
  · rw [l6, sin_neg]
    have hg := H.gm; have hh := H.hpos; have he := H.e1
    have : 0 < D.probe.P.GM / h * e * sin δ := by positivity
    have : 0 < D.rDv * (D.probe.P.GM / h * e * sin δ) := by positivity
    linarith
  · rw [V3.norm_sq, l5, hRn, ← hVe, aP]; ring
  · rw [← aP]; exact hTr
  · intro hnc
    obtain ⟨δ', P, C, s, al, be, f, g, T2, q1, q2, q3, q4, q5, q6, q7, q8, q9, q10, q11, q12, q13, m, -⟩ :=
      space_leg H' hr0 hRn hnc
    have hV2 : D.vDvSpace = some ((1 / g) • (D.space.rp • u' - f • R1)) := by
      unfold ProbeOrbiter.vDvSpace ProbeOrbiter.rVec
      rw [hR1, hru]
      simp only [bind, Option.bind]
      exact q10
    have hT2 : D.tofSpaceDays = some T2 := by
      unfold ProbeOrbiter.tofSpaceDays
      rw [hru]
      simp only [bind, Option.bind]
      exact q12
    have hdv : D.dvVec = some ((1 / g) • (D.space.rp • u' - f • R1) - V1) := by
      unfold ProbeOrbiter.dvVec
      rw [hV2, hV1]
      rfl
    refine ⟨_, T2, hV2, hT2, q13, ?_, by rw [← sP]; exact m, hdv, by unfold ProbeOrbiter.dvMag; rw [hdv]; rfl⟩
    rw [V3.norm_sq, q11, hRn, ← hVe', sP]; ring

/-! ### C57: two orbiters -/

/-- C57 for `OrbiterOrbiterDeflection`: as for the probe and the orbiter; the velocity before the manoeuvre, although
obtained from Lambert's problem, is again the one of the first spacecraft's own arrival hyperbola. -/
theorem C57_orbiter_orbiter (name : String) (v : V3) (rp psi rs ps ρ : ℝ) (D : OrbiterOrbiter) (Hv : V3)
    (hD : OrbiterOrbiter.init name v rp psi rs ps ρ = .ok D) (hv : v ≠ 0) (hrp : 0 < rp) (hrs : 0 < rs)
    (hH : D.space1.hVec = some Hv) (hne : Hv.x ≠ 0 ∨ Hv.y ≠ 0) (hr : rp < ρ * D.P.RP) :
    ∃ (R1 V1 Rp Rs : V3) (T1 th : ℝ), D.rVec = some R1 ∧ V3.norm R1 = ρ * D.P.RP ∧
      D.space1.rpVec = some Rp ∧ D.space2.rpVec = some Rs ∧
      D.vDv1 = some V1 ∧ D.tof1Days = some T1 ∧ 0 < T1 ∧
      Maneuver.thetaDv D.space1 D.rDv = some th ∧ D.space1.velVec th = some V1 ∧
      Spec.Transfer D.P.GM R1 V1 Rp (T1 * 86400) ∧
      (V3.cross R1 Rs ≠ 0 →
        ∃ (V2 : V3) (T2 : ℝ), D.vDv2 = some V2 ∧ D.tof2Days = some T2 ∧ 0 < T2 ∧
          V3.norm V2 ^ 2 / 2 - D.P.GM / V3.norm R1 = (V3.norm v * 1e3) ^ 2 / 2 ∧
          Spec.Transfer D.P.GM R1 V2 Rs (T2 * 86400) ∧
          D.dvVec = some (V2 - V1) ∧ D.dvMag = some (V3.norm (V2 - V1))) := by
  obtain ⟨hP, hA, hS, hρ⟩ := orbiterOrbiter_inv hD
  obtain ⟨aP, sP, av, sv, arp, srp, -, -⟩ := same_arrival hP hA hS
  obtain ⟨V, e, b, h, d, u, w, H⟩ := core_of hP aP hv av (by rw [arp]; exact hrp)
  obtain ⟨V', e', b', h', d', u', w', H'⟩ := core_of hP sP hv sv (by rw [srp]; exact hrs)
  have hw := core_w H hH hne
  have hrd : D.rDv = ρ * D.P.RP := by unfold OrbiterOrbiter.rDv; rw [hρ]
  rw [← hrd] at hr
  obtain ⟨a, n, k, δ, L, -⟩ := leg_core H (r := D.rDv) (by rw [arp]; exact hr)
  have hr0 := L.rpos
  have hR1 := L.rvec H hw
  have hRn := L.rnorm H
  have hsd : 0 < sin δ := sin_pos_of_pos_of_lt_pi L.d0 L.dpi
  have hvel : D.space1.velVec (-δ) = some (cVel (D.space1.P.GM / h) e u (V3.cross w u) (-δ)) :=
    Core.vel_eq H hw (by rw [sin_neg]; linarith) L.den'
  have hVe' : V' = V3.norm v * 1e3 := by rw [H'.hV]; unfold Approach.vInfMag; rw [sv]
  have hru := rVecDvUnit_eq hR1 hr0 hRn
  obtain ⟨hnc1, hown⟩ := L.vSpace_own H
  set R1 := cPos (h ^ 2 / D.space1.P.GM) e u (V3.cross w u) (-δ) with hR1d
  set V1 := cVel (D.space1.P.GM / h) e u (V3.cross w u) (-δ) with hV1d
  have hV1 : D.vDv1 = some V1 := by
    unfold OrbiterOrbiter.vDv1 OrbiterOrbiter.rVec
    rw [hR1, hru]
    simp only [bind, Option.bind]
    exact hown
  obtain ⟨-, -, -, -, -, -, f1, g1, T1, -, -, -, -, -, -, -, -, -, p10, -, p12, p13, m1, -⟩ := space_leg H hr0 hRn hnc1
  rw [hown] at p10
  rw [← Option.some.inj p10] at m1
  have hT1 : D.tof1Days = some T1 := by
    unfold OrbiterOrbiter.tof1Days
    rw [hru]
    simp only [bind, Option.bind]
    exact p12
  refine ⟨R1, V1, D.space1.rp • u, D.space2.rp • u', T1, -δ, hR1, by rw [hRn, hrd], LegCore.rpVec H, LegCore.rpVec H', hV1, hT1,
    p13, L.th, hvel, by rw [← aP]; exact m1, ?_⟩
  intro hnc
  obtain ⟨δ', P, C, s, al, be, f, g, T2, q1, q2, q3, q4, q5, q6, q7, q8, q9, q10, q11, q12, q13, m, -⟩ :=
    space_leg H' hr0 hRn hnc
  have hV2 : D.vDv2 = some ((1 / g) • (D.space2.rp • u' - f • R1)) := by
    unfold OrbiterOrbiter.vDv2 OrbiterOrbiter.rVec
    rw [hR1, hru]
    simp only [bind, Option.bind]
    exact q10
  have hT2 : D.tof2Days = some T2 := by
    unfold OrbiterOrbiter.tof2Days
    rw [hru]
    simp only [bind, Option.bind]
    exact q12
  have hdv : D.dvVec = some ((1 / g) • (D.space2.rp • u' - f • R1) - V1) := by
    unfold OrbiterOrbiter.dvVec
    rw [hV2, hV1]
    rfl
  refine ⟨_, T2, hV2, hT2, q13, ?_, by rw [← sP]; exact m, hdv, by unfold OrbiterOrbiter.dvMag; rw [hdv]; rfl⟩
  rw [V3.norm_sq, q11, hRn, ← hVe', sP]; ring

/-! ### C57: two probes -/

/-- C57 for `ProbeProbeDeflection` (partial: the second probe only under a condition that the code does not ensure, see
`C57_second_probe_fails`).  The first probe's velocity is right.  The second probe's velocity, computed with the angle that
the second probe would have on its own hyperbola, has the energy of the arrival exactly when that angle is the angle
between the manoeuvre point and the second probe's periapsis, and then it carries the second probe there in `TOF_probe2`
days. -/
theorem C57_probe_probe_partial (name : String) (v : V3) (rp psi rs ps ρ : ℝ) (hE1 hE2 : Option ℝ) (D : ProbeProbe) (Hv : V3)
    (hD : ProbeProbe.init name v rp psi hE1 rs ps hE2 ρ = .ok D) (hv : v ≠ 0) (hrp : 0 < rp) (hrs : 0 < rs)
    (hH : D.probe1.hVec = some Hv) (hne : Hv.x ≠ 0 ∨ Hv.y ≠ 0) (hr : rp < ρ * D.P.RP) (hr2 : rs < ρ * D.P.RP) :
    ∃ (R1 V1 Rp Rs V2 : V3) (T1 T2 δ2 : ℝ), D.rVec = some R1 ∧ V3.norm R1 = ρ * D.P.RP ∧
      D.probe1.rpVec = some Rp ∧ D.probe2.rpVec = some Rs ∧
      D.vDv1 = some V1 ∧ D.tof1Days = some T1 ∧ 0 < T1 ∧ Spec.Transfer D.P.GM R1 V1 Rp (T1 * 86400) ∧
      D.vDv2 = some V2 ∧ D.tof2Days = some T2 ∧ 0 < T2 ∧ Maneuver.deltaProbe D.probe2 D.rDv = some δ2 ∧
      D.dvVec = some (V2 - V1) ∧ D.dvMag = some (V3.norm (V2 - V1)) ∧
      (V3.norm V2 ^ 2 / 2 - D.P.GM / V3.norm R1 = (V3.norm v * 1e3) ^ 2 / 2 ↔
        V3.dot R1 Rs = V3.norm R1 * V3.norm Rs * cos δ2) ∧
      (V3.dot R1 Rs = V3.norm R1 * V3.norm Rs * cos δ2 → Spec.Transfer D.P.GM R1 V2 Rs (T2 * 86400)) := by
  obtain ⟨hP, hA, hS, hρ⟩ := probeProbe_inv hD
  obtain ⟨aP, sP, av, sv, arp, srp, -, -⟩ := same_arrival hP hA hS
  obtain ⟨V, e, b, h, d, u, w, H⟩ := core_of hP aP hv av (by rw [arp]; exact hrp)
  obtain ⟨V', e', b', h', d', u', w', H'⟩ := core_of hP sP hv sv (by rw [srp]; exact hrs)
  have hw := core_w H hH hne
  have hrd : D.rDv = ρ * D.P.RP := by unfold ProbeProbe.rDv; rw [hρ]
  rw [← hrd] at hr hr2
  obtain ⟨a, n, k, δ, L, -⟩ := leg_core H (r := D.rDv) (by rw [arp]; exact hr)
  obtain ⟨a', n', k', δ', L', -⟩ := leg_core H' (r := D.rDv) (by rw [srp]; exact hr2)
  have hr0 := L.rpos
  have hR1 := L.rvec H hw
  have hRn := L.rnorm H
  obtain ⟨T, hT, hT0, hTr⟩ := L.motion H
  have hown := L.vProbe_own H
  have hVe' : V' = V3.norm v * 1e3 := by rw [H'.hV]; unfold Approach.vInfMag; rw [sv]
  set R1 := cPos (h ^ 2 / D.probe1.P.GM) e u (V3.cross w u) (-δ) with hR1d
  set V1 := cVel (D.probe1.P.GM / h) e u (V3.cross w u) (-δ) with hV1d
  have hV1 : D.vDv1 = some V1 := by
    unfold ProbeProbe.vDv1 ProbeProbe.rVec
    rw [hR1]
    simp only [bind, Option.bind]
    exact hown
  have hat := L'.vProbe_at H' R1
  set V2 := (1 / (1 / n' * ((e' - 1) * k' * sin δ' / (1 + e' * cos δ')))) •
      (D.probe2.rp • u' - ((e' + cos δ') / (1 + e')) • R1) with hV2d
  have hV2 : D.vDv2 = some V2 := by
    unfold ProbeProbe.vDv2 ProbeProbe.rVec
    rw [hR1]
    simp only [bind, Option.bind]
    exact hat
  have hRR : V3.dot R1 R1 = D.rDv ^ 2 := by rw [← V3.norm_sq, hRn]
  obtain ⟨k1, k2, k3⟩ := L'.dots_at H' hRR hat
  obtain ⟨x, hx, -⟩ := L'.anomaly H'
  have hRs : V3.norm (D.probe2.rp • u') = D.probe2.rp := by
    rw [V3.norm_smul, V3.norm_of_dot_one H'.uu, mul_one, abs_of_pos H'.rp]
  have hcond : V3.dot R1 (D.probe2.rp • u') = V3.norm R1 * V3.norm (D.probe2.rp • u') * cos δ' ↔ V3.dot R1 u' = D.rDv * cos δ' := by
    rw [hRs, hRn, V3.dot_smul_right]
    have hp := H'.rp
    constructor
    · intro hh
      apply mul_left_cancel₀ hp.ne'
      linear_combination hh
    · intro hh
      rw [hh]; ring
  have hT2 : ∃ T2, D.tof2Days = some T2 ∧ 0 < T2 := by
    obtain ⟨T2, t1, t2, -⟩ := L'.motion H'
    exact ⟨T2, t1, t2⟩
  obtain ⟨T2, t1, t2⟩ := hT2
  have hdv : D.dvVec = some (V2 - V1) := by
    unfold ProbeProbe.dvVec
    rw [hV2, hV1]
    rfl
  refine ⟨R1, V1, D.probe1.rp • u, D.probe2.rp • u', V2, T, T2, δ', hR1, by rw [hRn, hrd], LegCore.rpVec H, LegCore.rpVec H', hV1,
    hT, hT0, by rw [← aP]; exact hTr, hV2, t1, t2, L'.delta, hdv, by unfold ProbeProbe.dvMag; rw [hdv]; rfl, ?_, ?_⟩
  · rw [hcond, V3.norm_sq, k1, hRn, ← hVe', sP]
    have hc1 : 0 < (e' + cos δ') / (1 + e') := by
      have := H'.e1; have := neg_one_le_cos δ'
      apply div_pos <;> linarith
    have hg := L'.g_pos H'
    have hp := H'.rp
    have hcoef : 2 * ((e' + cos δ') / (1 + e')) * D.probe2.rp / (1 / n' * ((e' - 1) * k' * sin δ' / (1 + e' * cos δ'))) ^ 2 ≠ 0 := by
      positivity
    generalize 2 * ((e' + cos δ') / (1 + e')) * D.probe2.rp /
      (1 / n' * ((e' - 1) * k' * sin δ' / (1 + e' * cos δ'))) ^ 2 = c at hcoef ⊢
    constructor
    · intro hh
      have : c * (V3.dot R1 u' - D.rDv * cos δ') = 0 := by linear_combination -2 * hh
      rcases mul_eq_zero.mp this with h0 | h0
      · exact absurd h0 hcoef
      · linarith
    · intro hh
      rw [hh]; ring
  · rw [hcond]
    intro hh
    rw [hh] at k1
    obtain ⟨T3, u1, u2, u3⟩ := L'.motion_at H' hRR (k2 hh) (by rw [k1]; ring) k3
    have : T3 = T2 := by
      have h9 : Maneuver.tofProbe D.probe2 D.rDv = some T2 := t1
      rw [u1] at h9
      exact Option.some.inj h9
    rw [this] at u3
    rw [← sP]; exact u3

/-- C57, finding: with the second probe aimed at the opposite side of the planet (aim angle differing by a half turn, same
periapsis radius) the velocity reported for the second probe never has the energy of the arrival: it is not the velocity
of any trajectory with this arrival speed, for every planet, arrival velocity, periapsis radius and manoeuvre radius. -/
theorem C57_second_probe_fails (name : String) (v : V3) (rp psi ρ : ℝ) (hE1 hE2 : Option ℝ) (D : ProbeProbe) (Hv : V3)
    (hD : ProbeProbe.init name v rp psi hE1 rp (psi + π) hE2 ρ = .ok D) (hv : v ≠ 0) (hrp : 0 < rp)
    (hH : D.probe1.hVec = some Hv) (hne : Hv.x ≠ 0 ∨ Hv.y ≠ 0) (hr : rp < ρ * D.P.RP) :
    ∃ R1 V2 : V3, D.rVec = some R1 ∧ D.vDv2 = some V2 ∧
      V3.norm V2 ^ 2 / 2 - D.P.GM / V3.norm R1 ≠ (V3.norm v * 1e3) ^ 2 / 2 := by
  obtain ⟨R1, V1, Rp, Rs, V2, T1, T2, δ2, f1, f2, f3, f4, -, -, -, -, f9, -, -, f12, -, -, f15, -⟩ :=
    C57_probe_probe_partial name v rp psi rp (psi + π) ρ hE1 hE2 D Hv hD hv hrp hrp hH hne hr hr
  refine ⟨R1, V2, f1, f9, fun hen => ?_⟩
  have hcond := f15.mp hen
  obtain ⟨hP, hA, hS, hρ⟩ := probeProbe_inv hD
  obtain ⟨aP, sP, av, sv, arp, srp, apsi, spsi⟩ := same_arrival hP hA hS
  obtain ⟨V, e, b, h, d, u, w, H⟩ := core_of hP aP hv av (by rw [arp]; exact hrp)
  obtain ⟨V', e', b', h', d', u', w', H'⟩ := core_of hP sP hv sv (by rw [srp]; exact hrp)
  have hw := core_w H hH hne
  have hrd : D.rDv = ρ * D.P.RP := by unfold ProbeProbe.rDv; rw [hρ]
  rw [← hrd] at hr
  obtain ⟨a, n, k, δ, L, ha⟩ := leg_core H (r := D.rDv) (by rw [arp]; exact hr)
  obtain ⟨a', n', k', δ', L', ha'⟩ := leg_core H' (r := D.rDv) (by rw [srp]; exact hr)
  -- the two hyperbolas have the same shape
  have hVV : V' = V := by rw [H'.hV, H.hV]; unfold Approach.vInfMag; rw [sv, av]
  have hee : e' = e := by rw [H'.heq, H.heq, hVV, srp, arp, sP, aP]
  have hbb : b' = b := by
    apply injOn_cos ⟨H'.b0.le, by have := H'.bpi; linarith [pi_pos]⟩ ⟨H.b0.le, by have := H.bpi; linarith [pi_pos]⟩
    rw [H'.cb, H.cb, hee]
  have haa : a' = a := by rw [ha', ha, hVV, sP, aP]
  have hk0 : 0 < e ^ 2 - 1 := by rw [← L.k2]; have := L.k0; positivity
  have ha0 := L.a0
  have hδ : cos δ' = cos δ := by
    have h1 := L'.hr
    have h2 := L.hr
    have hd1 := L'.den; have hd2 := L.den
    rw [L'.k2, hee, haa] at h1
    rw [L.k2] at h2
    rw [hee] at hd1
    rw [h2, div_eq_div_iff hd2.ne' hd1.ne'] at h1
    have h3 := mul_left_cancel₀ (mul_pos ha0 hk0).ne' h1
    have he := H.e1
    have h4 : e * cos δ' = e * cos δ := by linarith
    exact mul_left_cancel₀ (by linarith) h4
  have hδ2 : δ2 = δ' := by
    rw [L'.delta] at f12
    exact (Option.some.inj f12).symm
  -- the second periapsis direction
  have hphi1 : D.probe2.phi1 = D.probe1.phi1 := by
    unfold Approach.phi1 Approach.vInfBi Approach.vInfBiKms; rw [sP, aP, sv, av]
  have hphi2 : D.probe2.phi2 = D.probe1.phi2 := by
    unfold Approach.phi2 Approach.vInfBiPrime Approach.vInfBi Approach.vInfBiKms; rw [hphi1, sP, aP, sv, av]
  have hu' : u' = (2 * cos b) • d - u := by
    have h1 := H.hu
    have h2 := H'.hu
    unfold Approach.rpUnit at h1 h2
    rw [H.hb] at h1
    rw [H'.hb] at h2
    simp only [bind, Option.bind, pure, Option.some.injEq] at h1 h2
    rw [hphi1, hphi2, hbb, spsi, cos_add_pi, sin_add_pi] at h2
    rw [apsi] at h1
    rw [← h2, ← h1, H.hd]
    ext <;> simp only [V3.sub_x, V3.sub_y, V3.sub_z, V3.smul_x, V3.smul_y, V3.smul_z] <;> ring
  -- the manoeuvre point
  have hR1 : R1 = cPos (h ^ 2 / D.probe1.P.GM) e u (V3.cross w u) (-δ) := by
    have := L.rvec H hw
    have h9 : Maneuver.rVecDv D.probe1 D.rDv = some R1 := f1
    rw [this] at h9
    exact (Option.some.inj h9).symm
  have hRn : V3.norm R1 = D.rDv := by rw [hR1]; exact L.rnorm H
  have hrad : h ^ 2 / D.probe1.P.GM / (1 + e * cos (-δ)) = D.rDv := by rw [L.semi, cos_neg, ← L.hr]
  have hRu : V3.dot R1 u = D.rDv * cos δ := by
    have := (Core.laws H L.den').2.2.2.2.2.2
    rw [← hR1, hrad, cos_neg] at this
    exact this
  have hRd : V3.dot R1 d = D.rDv * (cos δ * cos b - sin δ * sin b) := by
    have hq : V3.dot (V3.cross w u) (V3.cross w u) = 1 := by
      rw [V3.dot_cross_self, H.ww, H.uu, V3.dot_comm, H.uw]; ring
    have huq : V3.dot u (V3.cross w u) = 0 := V3.dot_cross_right w u
    rw [hR1, Core.frame H]
    unfold cPos
    rw [hrad, cos_neg, sin_neg]
    have huu := H.uu
    generalize V3.cross w u = q at *
    have e1 : V3.dot (D.rDv • (cos δ • u + (-sin δ) • q)) (cos b • u + sin b • q) =
        D.rDv * (cos δ * cos b * V3.dot u u + (cos δ * sin b - sin δ * cos b) * V3.dot u q - sin δ * sin b * V3.dot q q) := by
      simp only [V3.dot, V3.add_x, V3.add_y, V3.add_z, V3.smul_x, V3.smul_y, V3.smul_z]; ring
    rw [e1, huu, huq, hq]; ring
  have hRs : Rs = D.probe2.rp • u' := by
    rw [LegCore.rpVec H'] at f4
    exact (Option.some.inj f4).symm
  have hRsn : V3.norm Rs = D.probe2.rp := by
    rw [hRs, V3.norm_smul, V3.norm_of_dot_one H'.uu, mul_one, abs_of_pos H'.rp]
  have hr0 := L.rpos
  have hp' := H'.rp
  have hRu' : V3.dot R1 u' = 2 * cos b * V3.dot R1 d - V3.dot R1 u := by
    rw [hu']
    simp only [V3.dot, V3.sub_x, V3.sub_y, V3.sub_z, V3.smul_x, V3.smul_y, V3.smul_z]; ring
  rw [hRsn, hRn, hRs, V3.dot_smul_right, hRu', hRd, hRu, hδ2, hδ] at hcond
  have hc2 : (D.rDv * D.probe2.rp) * (cos b * (cos δ * cos b - sin δ * sin b) - cos δ) = 0 := by
    linear_combination (1 / 2 : ℝ) * hcond
  have hc3 : cos b * (cos δ * cos b - sin δ * sin b) - cos δ = 0 := by
    rcases mul_eq_zero.mp hc2 with h0 | h0
    · exact absurd h0 (by positivity)
    · exact h0
  have hc4 : sin b * sin (δ + b) = 0 := by
    rw [sin_add]
    have sc := sin_sq_add_cos_sq b
    linear_combination -hc3 + cos δ * sc
  have hsum : δ < π - b := by
    by_contra hcon
    push Not at hcon
    have hm := strictAntiOn_cos.antitoneOn ⟨by have := H.bpi; linarith [pi_pos], by have := H.b0; linarith⟩ ⟨L.d0.le, L.dpi.le⟩ hcon
    rw [cos_pi_sub, H.cb] at hm
    have hd := L.den
    have he := H.e1
    have : e * cos δ ≤ e * (-(1 / e)) := mul_le_mul_of_nonneg_left hm (by linarith)
    have h5 : e * (-(1 / e)) = -1 := by field_simp
    linarith
  have hpos : 0 < sin (δ + b) := sin_pos_of_pos_of_lt_pi (by have := L.d0; have := H.b0; linarith) (by linarith)
  have := H.sb
  have : 0 < sin b * sin (δ + b) := by positivity
  linarith

/-! ### Concrete manoeuvres -/

/-- A probe to a 6371 km periapsis and an orbiter to an 8000 km periapsis a quarter turn away, separating at 50 Earth radii:
the hypotheses of `C57_probe_orbiter`, including the inner one. -/
theorem earth_probe_orbiter : ∃ (D : ProbeOrbiter) (Hv R1 Rs : V3),
    ProbeOrbiter.init "EARTH" ⟨0, 10, 0⟩ 6371e3 0 (some 120e3) 8000e3 (π / 2) 50 = .ok D ∧ (⟨0, 10, 0⟩ : V3) ≠ 0 ∧
    D.probe.hVec = some Hv ∧ (Hv.x ≠ 0 ∨ Hv.y ≠ 0) ∧ (6371e3 : ℝ) < 50 * D.P.RP ∧ D.rVec = some R1 ∧ D.space.rpVec = some Rs ∧
    V3.cross R1 Rs ≠ 0 := by
  obtain ⟨A, V, e, b, h, d, u, w, hA, H, hu, hw, hRP, harp, -, -⟩ :=
    earth_aim (rp := 6371e3) (psi := 0) true (some 120e3) (by simp) (by norm_num)
  obtain ⟨S, V', e', b', h', d', u', w', hS, H', hu', hw', hRP', hsrp, -, -⟩ :=
    earth_aim (rp := 8000e3) (psi := π / 2) false none (by simp) (by norm_num)
  obtain ⟨P, hP, hAP, -⟩ := approach_init_inv hA
  have hv0 : (⟨0, 10, 0⟩ : V3) ≠ 0 := by
    intro h0
    have := congrArg V3.y h0
    simp at this
  have hn : w.x ≠ 0 ∨ w.y ≠ 0 := by right; rw [hw]; simp
  obtain ⟨a, n, k, δ, L, -⟩ := leg_core H (r := 50 * P.RP) (by rw [harp, ← hAP, hRP]; norm_num)
  have hR := L.rvec H hn
  have hRn := L.rnorm H
  have hk : A.rp * V * sin b ≠ 0 := by have := H.rp; have := H.vpos; have := H.sb; positivity
  refine ⟨⟨P, A, S, 50⟩, (A.rp * V * sin b) • w, _, S.rp • u', ?_, hv0, H.hhv, ?_, ?_, hR, LegCore.rpVec H', ?_⟩
  · unfold ProbeOrbiter.init
    rw [hP, hA, hS]
    rfl
  · right
    rw [hw]
    simp only [V3.smul_y, cos_zero]
    have := neg_ne_zero.mpr hk
    rwa [mul_neg_one]
  · change (6371e3:ℝ) < 50 * P.RP
    rw [← hAP, hRP]; norm_num
  · intro h0
    have hy : (cPos (h ^ 2 / A.P.GM) e u (V3.cross w u) (-δ)).y = 0 := by
      unfold cPos
      rw [hu, hw]
      simp [V3.cross]
    have hsb' := H'.sb
    have hSp := H'.rp
    have hx := congrArg V3.x h0
    have hz := congrArg V3.z h0
    have hr0 := L.rpos
    generalize cPos (h ^ 2 / A.P.GM) e u (V3.cross w u) (-δ) = R1 at *
    rw [hu'] at hx hz
    simp only [V3.cross, V3.smul_x, V3.smul_y, V3.smul_z, V3.zero_x, V3.zero_z, hy, sin_pi_div_two] at hx hz
    have hq : S.rp * (sin b' * 1) ≠ 0 := by positivity
    have h1 : R1.z = 0 := by
      have : R1.z * (S.rp * (sin b' * 1)) = 0 := by linarith
      exact (mul_eq_zero.mp this).resolve_right hq
    have h2 : R1.x = 0 := by
      have : R1.x * (S.rp * (sin b' * 1)) = 0 := by linarith
      exact (mul_eq_zero.mp this).resolve_right hq
    have h3 : R1 = 0 := by ext <;> simp [h1, h2, hy]
    rw [h3, V3.norm_eq_zero.mpr rfl] at hRn
    linarith

/-- Two probes on opposite sides of Earth: the hypotheses of `C57_second_probe_fails` (and of `C57_probe_probe_partial`). -/
theorem earth_two_probes : ∃ (D : ProbeProbe) (Hv : V3),
    ProbeProbe.init "EARTH" ⟨0, 10, 0⟩ 6371e3 0 (some 120e3) 6371e3 (0 + π) (some 120e3) 50 = .ok D ∧ (⟨0, 10, 0⟩ : V3) ≠ 0 ∧
    D.probe1.hVec = some Hv ∧ (Hv.x ≠ 0 ∨ Hv.y ≠ 0) ∧ (6371e3 : ℝ) < 50 * D.P.RP := by
  obtain ⟨A, V, e, b, h, d, u, w, hA, H, hu, hw, hRP, harp, -, -⟩ :=
    earth_aim (rp := 6371e3) (psi := 0) true (some 120e3) (by simp) (by norm_num)
  obtain ⟨S, V', e', b', h', d', u', w', hS, H', hu', hw', hRP', hsrp, -, -⟩ :=
    earth_aim (rp := 6371e3) (psi := 0 + π) true (some 120e3) (by simp) (by norm_num)
  obtain ⟨P, hP, hAP, -⟩ := approach_init_inv hA
  have hv0 : (⟨0, 10, 0⟩ : V3) ≠ 0 := by
    intro h0
    have := congrArg V3.y h0
    simp at this
  have hk : A.rp * V * sin b ≠ 0 := by have := H.rp; have := H.vpos; have := H.sb; positivity
  refine ⟨⟨P, A, S, 50⟩, (A.rp * V * sin b) • w, ?_, hv0, H.hhv, ?_, ?_⟩
  · unfold ProbeProbe.init
    rw [hP, hA, hS]
    rfl
  · right
    rw [hw]
    simp only [V3.smul_y, cos_zero]
    have := neg_ne_zero.mpr hk
    rwa [mul_neg_one]
  · change (6371e3:ℝ) < 50 * P.RP
    rw [← hAP, hRP]; norm_num

/-- Two orbiters: the hypotheses of `C57_orbiter_orbiter`. -/
example : ∃ (D : OrbiterOrbiter) (Hv : V3),
    OrbiterOrbiter.init "EARTH" ⟨0, 10, 0⟩ 6371e3 0 8000e3 (π / 2) 50 = .ok D ∧ (⟨0, 10, 0⟩ : V3) ≠ 0 ∧
    D.space1.hVec = some Hv ∧ (Hv.x ≠ 0 ∨ Hv.y ≠ 0) ∧ (6371e3 : ℝ) < 50 * D.P.RP := by
  obtain ⟨A, V, e, b, h, d, u, w, hA, H, hu, hw, hRP, harp, -, -⟩ :=
    earth_aim (rp := 6371e3) (psi := 0) false none (by simp) (by norm_num)
  obtain ⟨S, V', e', b', h', d', u', w', hS, H', hu', hw', hRP', hsrp, -, -⟩ :=
    earth_aim (rp := 8000e3) (psi := π / 2) false none (by simp) (by norm_num)
  obtain ⟨P, hP, hAP, -⟩ := approach_init_inv hA
  have hv0 : (⟨0, 10, 0⟩ : V3) ≠ 0 := by
    intro h0
    have := congrArg V3.y h0
    simp at this
  have hk : A.rp * V * sin b ≠ 0 := by have := H.rp; have := H.vpos; have := H.sb; positivity
  refine ⟨⟨P, A, S, 50⟩, (A.rp * V * sin b) • w, ?_, hv0, H.hhv, ?_, ?_⟩
  · unfold OrbiterOrbiter.init
    rw [hP, hA, hS]
    rfl
  · right
    rw [hw]
    simp only [V3.smul_y, cos_zero]
    have := neg_ne_zero.mpr hk
    rwa [mul_neg_one]
  · change (6371e3:ℝ) < 50 * P.RP
    rw [← hAP, hRP]; norm_num

end AMAT.Props
