import Verif.Props.Deflected

/-
Property C153: a probe that is left on its course at the manoeuvre point arrives at the entry interface in the entry state
that is reported for its approach.
-/

noncomputable section

open Real

namespace AMAT.Props

open Real AMAT AMAT.Spec AMAT.Lits

/-- Every motion through the manoeuvre state meets the interface in the reported entry state. -/
theorem undeflected_entry {name : String} {v : V3} {rp psi : ℝ} {bb : Bool} {hEI : Option ℝ} {A : Approach} {Hv : V3}
    (hA : Approach.init name v rp psi bb hEI = .ok A) (hv : v ≠ 0) (hrp : 0 < rp) (hH : A.hVec = some Hv)
    (hne : Hv.x ≠ 0 ∨ Hv.y ≠ 0) {r th T hE : ℝ} {R1 V1 Rp : V3} (hth : Maneuver.thetaDv A r = some th)
    (hR1 : Maneuver.rVecDv A r = some R1) (hn1 : V3.norm R1 = r) (hV1 : A.velVec th = some V1) (hn : V3.norm Rp = rp) (hT0 : 0 < T)
    (hT : Transfer A.P.GM R1 V1 Rp T) (hlow : rp < A.P.RP + hE) (hhigh : A.P.RP + hE < r) {R U : ℝ → V3}
    (hs : StartsAt A.P.GM R1 V1 R U) :
    ∃ s, 0 < s ∧ s < T ∧ A.rVecEntry hE = some (R s) ∧ A.vVecEntry hE = some (U s) ∧
      (∀ s' < s, A.P.RP + hE < V3.norm (R s')) ∧ ∀ s', s < s' → s' ≤ T → V3.norm (R s') < A.P.RP + hE := by
  obtain ⟨β, P0, U0, hβ, -, -, hP0, ⟨M, N, m⟩, k⟩ := C149_arrival_flown_partial name v rp psi bb hEI A Hv hA hv hrp hH hne
  obtain ⟨k1, -, ⟨τ, -, -, -, k3⟩, k4⟩ := k M N m
  obtain ⟨P, -, hAP, -, harp, -⟩ := approach_init_inv hA
  obtain ⟨V, e, b, h, d, u, w, H, -, -⟩ := approach_facts hA hv hrp hH hne
  obtain ⟨a, n, kk, δ, L, -⟩ := leg_core H (r := r) (by rw [harp]; linarith)
  have hδ : th = -δ := Option.some.inj (hth.symm.trans L.th)
  have hb : β = b := Option.some.inj (hβ.symm.trans H.hb)
  have hin : th ∈ Set.Ioc (-(π - β)) 0 := by
    have h1 : -δ ∈ Set.Ioo (-asymptote e) (asymptote e) :=
      (asym_iff H.e1 (by linarith [L.dpi]) (by linarith [pi_pos, L.d0])).mpr L.den'
    rw [asymptote_beta H.cb H.b0 H.bpi] at h1
    rw [hδ, hb]
    exact ⟨h1.1, by linarith [L.d0]⟩
  obtain ⟨q1, q2⟩ := k3 th hin
  set c := τ th
  have e1 : M c = R1 := by
    unfold Maneuver.rVecDv at hR1
    rw [hth] at hR1
    exact Option.some.inj (q1.symm.trans hR1)
  have e2 : N c = V1 := Option.some.inj (q2.symm.trans hV1)
  have hMpos : ∀ t, 0 < V3.norm (M t) := fun t => by
    by_cases ht : t = 0
    · rw [ht, m.2.1, hP0]; exact hrp
    · exact lt_trans hrp (k1 t ht)
  have hsh := motion_shift m.1 c
  have huniq : ∀ R U, StartsAt A.P.GM R1 V1 R U → ∀ t, M (t + c) = R t ∧ N (t + c) = U t := fun R U hs =>
    twoBody_unique hsh hs.1 (fun t => hMpos _) 0 (by rw [hs.2.1, zero_add, e1]) (by rw [hs.2.2, zero_add, e2])
  obtain ⟨M', N', t1, t2, t3, t4, -⟩ := hT
  have hc : T + c = 0 := by
    by_contra hc
    have h1 := k1 _ hc
    rw [(huniq M' N' ⟨t1, t2, t3⟩ T).1, t4, hn] at h1
    exact lt_irrefl _ h1
  obtain ⟨s, hs0, j1, j2, j3, j4⟩ := k4 hE hlow
  have hsc : c < s := by
    by_contra hcs
    push Not at hcs
    rcases eq_or_lt_of_le hcs with h1 | h1
    · have h2 : V3.norm (M s) ≤ A.P.RP + hE := by
        by_contra h3
        push Not at h3
        have hcont : ContinuousAt (fun t => V3.norm (M t)) s := (twoBody_rates m.1 (hMpos s)).1.continuousAt
        have hev := hcont.eventually (lt_mem_nhds h3)
        obtain ⟨ε, hε, hb⟩ := Metric.eventually_nhds_iff.mp hev
        have hy0 : 0 < min (ε / 2) (-s / 2) := lt_min (by linarith) (by linarith)
        have hd : dist (s + min (ε / 2) (-s / 2)) s < ε := by
          rw [Real.dist_eq, add_sub_cancel_left, abs_of_pos hy0]
          linarith [min_le_left (ε / 2) (-s / 2)]
        have h4 := hb hd
        have h5 := j4 (s + min (ε / 2) (-s / 2)) (by linarith) (by linarith [min_le_right (ε / 2) (-s / 2)])
        linarith
      rw [h1, e1, hn1] at h2
      linarith
    · have h2 := j4 c h1 (by linarith)
      rw [e1, hn1] at h2
      linarith
  have hR : ∀ t, R t = M (t + c) := fun t => (huniq R U hs t).1.symm
  refine ⟨s - c, by linarith, by linarith, ?_, ?_, fun s' h' => ?_, fun s' h1 h2 => ?_⟩
  · rw [hR, sub_add_cancel]; exact j1
  · rw [← (huniq R U hs (s - c)).2, sub_add_cancel]; exact j2
  · rw [hR]; exact j3 _ (by linarith)
  · rw [hR]; exact j4 _ (by linarith) (by linarith)

/-- The flight of an entry probe from the manoeuvre point, for either class. -/
theorem probe_enters_core {name : String} {v : V3} {rp psi hE : ℝ} {A : Approach} {Hv : V3}
    (hA : Approach.init name v rp psi true (some hE) = .ok A) (hv : v ≠ 0) (hrp : 0 < rp) (hH : A.hVec = some Hv)
    (hne : Hv.x ≠ 0 ∨ Hv.y ≠ 0) {r : ℝ} (hlow : rp < A.P.RP + hE) (hhigh : A.P.RP + hE < r) :
    ∃ R1 V1 T, Maneuver.rVecDv A r = some R1 ∧ V3.norm R1 = r ∧ Maneuver.vProbe A r R1 = some V1 ∧ Maneuver.tofProbe A r = some T ∧
      (∃ R U, StartsAt A.P.GM R1 V1 R U) ∧ ∀ R U, StartsAt A.P.GM R1 V1 R U →
      ∃ s, 0 < s ∧ s < T * 86400 ∧ A.rVecEntry hE = some (R s) ∧ A.vVecEntry hE = some (U s) ∧
        (∀ s' < s, A.P.RP + hE < V3.norm (R s')) ∧ ∀ s', s < s' → s' ≤ T * 86400 → V3.norm (R s') < A.P.RP + hE := by
  obtain ⟨V, e, b, h, d, u, w, H, hw, -⟩ := approach_facts hA hv hrp hH hne
  obtain ⟨P, -, hAP, -, harp, -⟩ := approach_init_inv hA
  obtain ⟨a, n, k, δ, L, -⟩ := leg_core H (r := r) (by rw [harp]; linarith)
  have hR1 := L.rvec H hw
  have hRn := L.rnorm H
  obtain ⟨T, hT, hT0, hTr⟩ := L.motion H
  have hsd : 0 < sin δ := sin_pos_of_pos_of_lt_pi L.d0 L.dpi
  have hvel : A.velVec (-δ) = some (cVel (A.P.GM / h) e u (V3.cross w u) (-δ)) :=
    Core.vel_eq H hw (by rw [sin_neg]; linarith) L.den'
  refine ⟨_, _, T, hR1, hRn, L.vProbe_own H, hT, ?_, fun R U hs => ?_⟩
  · obtain ⟨M, N, m1, m2, m3, -⟩ := hTr
    exact ⟨M, N, m1, m2, m3⟩
  · refine undeflected_entry hA hv hrp hH hne L.th hR1 hRn hvel ?_ (by positivity) hTr hlow hhigh hs
    rw [V3.norm_smul, V3.norm_of_dot_one H.uu, mul_one, abs_of_pos H.rp, harp]

/-- C153 for `ProbeOrbiterDeflection`: every two-body motion from the manoeuvre point with the velocity before the burn stays
above the entry interface until it meets it in the state `(r_vec_entry_bi, v_vec_entry_bi)` of the probe's approach, and is below
the interface from then until `TOF_probe`.

Partial: probe orbits in the equatorial plane, for which nothing is computed. -/
theorem C153_probe_enters_partial (name : String) (v : V3) (rp psi rs ps ρ hE : ℝ) (D : ProbeOrbiter) (Hv : V3)
    (hD : ProbeOrbiter.init name v rp psi (some hE) rs ps ρ = .ok D) (hv : v ≠ 0) (hrp : 0 < rp)
    (hH : D.probe.hVec = some Hv) (hne : Hv.x ≠ 0 ∨ Hv.y ≠ 0) (hlow : rp < D.P.RP + hE) (hhigh : D.P.RP + hE < ρ * D.P.RP) :
    ∃ R1 V1 T, D.rVec = some R1 ∧ V3.norm R1 = ρ * D.P.RP ∧ D.vDvProbe = some V1 ∧ D.tofProbeDays = some T ∧
      (∃ R U, StartsAt D.P.GM R1 V1 R U) ∧ ∀ R U, StartsAt D.P.GM R1 V1 R U →
      ∃ s, 0 < s ∧ s < T * 86400 ∧ D.probe.rVecEntry hE = some (R s) ∧ D.probe.vVecEntry hE = some (U s) ∧
        (∀ s' < s, D.P.RP + hE < V3.norm (R s')) ∧ ∀ s', s < s' → s' ≤ T * 86400 → V3.norm (R s') < D.P.RP + hE := by
  obtain ⟨hP, hA, hS, hρ⟩ := probeOrbiter_inv hD
  obtain ⟨aP, -⟩ := same_arrival hP hA hS
  have hrd : D.rDv = ρ * D.P.RP := by unfold ProbeOrbiter.rDv; rw [hρ]
  have hk := probe_enters_core hA hv hrp hH hne (r := D.rDv) (by rw [aP]; exact hlow) (by rw [aP, hrd]; exact hhigh)
  rw [aP] at hk
  obtain ⟨R1, V1, T, k1, k2, k3, k4, k5⟩ := hk
  refine ⟨R1, V1, T, k1, by rw [k2, hrd], ?_, k4, k5⟩
  unfold ProbeOrbiter.vDvProbe ProbeOrbiter.rVec
  rw [k1]
  exact k3

/-- C153 for the first probe of `ProbeProbeDeflection`. -/
theorem C153_first_probe_enters_partial (name : String) (v : V3) (rp psi rs ps ρ hE : ℝ) (hE2 : Option ℝ) (D : ProbeProbe) (Hv : V3)
    (hD : ProbeProbe.init name v rp psi (some hE) rs ps hE2 ρ = .ok D) (hv : v ≠ 0) (hrp : 0 < rp)
    (hH : D.probe1.hVec = some Hv) (hne : Hv.x ≠ 0 ∨ Hv.y ≠ 0) (hlow : rp < D.P.RP + hE) (hhigh : D.P.RP + hE < ρ * D.P.RP) :
    ∃ R1 V1 T, D.rVec = some R1 ∧ V3.norm R1 = ρ * D.P.RP ∧ D.vDv1 = some V1 ∧ D.tof1Days = some T ∧
      (∃ R U, StartsAt D.P.GM R1 V1 R U) ∧ ∀ R U, StartsAt D.P.GM R1 V1 R U →
      ∃ s, 0 < s ∧ s < T * 86400 ∧ D.probe1.rVecEntry hE = some (R s) ∧ D.probe1.vVecEntry hE = some (U s) ∧
        (∀ s' < s, D.P.RP + hE < V3.norm (R s')) ∧ ∀ s', s < s' → s' ≤ T * 86400 → V3.norm (R s') < D.P.RP + hE := by
  obtain ⟨hP, hA, hS, hρ⟩ := probeProbe_inv hD
  obtain ⟨aP, -⟩ := same_arrival hP hA hS
  have hrd : D.rDv = ρ * D.P.RP := by unfold ProbeProbe.rDv; rw [hρ]
  have hk := probe_enters_core hA hv hrp hH hne (r := D.rDv) (by rw [aP]; exact hlow) (by rw [aP, hrd]; exact hhigh)
  rw [aP] at hk
  obtain ⟨R1, V1, T, k1, k2, k3, k4, k5⟩ := hk
  refine ⟨R1, V1, T, k1, by rw [k2, hrd], ?_, k4, k5⟩
  unfold ProbeProbe.vDv1 ProbeProbe.rVec
  rw [k1]
  exact k3

theorem earth_radius {P : Planet} (h : Planet.init "EARTH" = .ok P) : P.RP = 6371e3 := by
  obtain ⟨A, -, hA, -, -, -, -, hRP⟩ := demo_arrival
  obtain ⟨P', hP', hAP, -⟩ := approach_init_inv hA
  rw [h] at hP'
  injection hP' with hP'
  rw [hP', ← hAP, hRP]

/-- Case for `C153_probe_enters_partial`: the probe of C151, released 50 radii from Earth, meets the interface at 120 km. -/
example : ∃ (D : ProbeOrbiter) (R1 V1 : V3) (R U : ℝ → V3) (s : ℝ),
    ProbeOrbiter.init "EARTH" ⟨0, 10, 0⟩ 6371e3 0 (some 120e3) 8000e3 (π / 2) 50 = .ok D ∧ D.rVec = some R1 ∧
    D.vDvProbe = some V1 ∧ StartsAt D.P.GM R1 V1 R U ∧ 0 < s ∧ D.probe.rVecEntry 120e3 = some (R s) := by
  obtain ⟨D, Hv, R1, Rs, hD, hv, hH, hne, hr, -⟩ := earth_probe_orbiter
  have hRP := earth_radius (probeOrbiter_inv hD).1
  obtain ⟨R1, V1, T, k1, -, k3, -, ⟨R, U, m⟩, k⟩ := C153_probe_enters_partial _ _ _ _ _ _ _ _ D Hv hD hv (by norm_num) hH hne
    (by rw [hRP]; norm_num) (by rw [hRP]; norm_num)
  obtain ⟨s, s0, -, s1, -⟩ := k R U m
  exact ⟨D, R1, V1, R, U, s, hD, k1, k3, m, s0, s1⟩

/-- Case for `C153_first_probe_enters_partial`. -/
example : ∃ (D : ProbeProbe) (R1 V1 : V3) (R U : ℝ → V3) (s : ℝ),
    ProbeProbe.init "EARTH" ⟨0, 10, 0⟩ 6371e3 0 (some 120e3) 6371e3 (0 + π) (some 120e3) 50 = .ok D ∧ D.rVec = some R1 ∧
    D.vDv1 = some V1 ∧ StartsAt D.P.GM R1 V1 R U ∧ 0 < s ∧ D.probe1.rVecEntry 120e3 = some (R s) := by
  obtain ⟨D, Hv, hD, hv, hH, hne, hr⟩ := earth_two_probes
  have hRP := earth_radius (probeProbe_inv hD).1
  obtain ⟨R1, V1, T, k1, -, k3, -, ⟨R, U, m⟩, k⟩ := C153_first_probe_enters_partial _ _ _ _ _ _ _ _ _ D Hv hD hv (by norm_num) hH hne
    (by rw [hRP]; norm_num) (by rw [hRP]; norm_num)
  obtain ⟨s, s0, -, s1, -⟩ := k R U m
  exact ⟨D, R1, V1, R, U, s, hD, k1, k3, m, s0, s1⟩

end AMAT.Props
