import Verif.Props.ManeuverProps

/-
C128: `TOF_probe`, `TOF_probe1` are documented as the time until atmospheric entry, but run until periapsis.
-/

noncomputable section

open Classical

namespace AMAT.Props

open Real

/-- A motion that starts outside and ends inside a sphere passes through it in between. -/
theorem crosses_sphere {GM : ℝ} {R U : ℝ → V3} (h : Spec.TwoBodyMotion GM R U) {T ρ : ℝ} (hT : 0 < T)
    (h0 : ρ < V3.norm (R 0)) (h1 : V3.norm (R T) < ρ) : ∃ t, 0 < t ∧ t < T ∧ V3.norm (R t) = ρ := by
  have hc : Continuous fun t => V3.norm (R t) := by
    have hx : Continuous fun t => (R t).x := continuous_iff_continuousAt.mpr fun t => (h t).1.1.continuousAt
    have hy : Continuous fun t => (R t).y := continuous_iff_continuousAt.mpr fun t => (h t).1.2.1.continuousAt
    have hz : Continuous fun t => (R t).z := continuous_iff_continuousAt.mpr fun t => (h t).1.2.2.continuousAt
    unfold V3.norm V3.dot
    exact (((hx.mul hx).add (hy.mul hy)).add (hz.mul hz)).sqrt
  obtain ⟨t, ⟨ht0, ht1⟩, ht⟩ := intermediate_value_Icc' hT.le hc.continuousOn ⟨h1.le, h0.le⟩
  refine ⟨t, lt_of_le_of_ne ht0 ?_, lt_of_le_of_ne ht1 ?_, ht⟩
  · rintro rfl; exact absurd ht h0.ne'
  · rintro rfl; exact absurd ht h1.ne

/-- Distance, energy and their rates along a two-body motion away from the centre. -/
theorem twoBody_rates {GM : ℝ} {R U : ℝ → V3} (h : Spec.TwoBodyMotion GM R U) {t : ℝ} (ht : 0 < V3.norm (R t)) :
    HasDerivAt (fun s => V3.norm (R s)) (V3.dot (R t) (U t) / V3.norm (R t)) t ∧
      HasDerivAt (fun s => V3.dot (U s) (U s) / 2 - GM / V3.norm (R s)) 0 t := by
  obtain ⟨⟨rx, ry, rz⟩, ux, uy, uz⟩ := h t
  have hd : V3.dot (R t) (R t) ≠ 0 := by rw [← V3.norm_sq]; positivity
  have h1 := (((rx.mul rx).add (ry.mul ry)).add (rz.mul rz)).sqrt hd
  have hr : HasDerivAt (fun s => V3.norm (R s)) (V3.dot (R t) (U t) / V3.norm (R t)) t := by
    refine h1.congr_deriv ?_
    change (_ : ℝ) / (2 * V3.norm (R t)) = _
    rw [div_eq_div_iff (by positivity) ht.ne']
    simp only [V3.dot]
    ring
  refine ⟨hr, ?_⟩
  have h2 := (((ux.mul ux).add (uy.mul uy)).add (uz.mul uz)).div_const 2
  have h3 := (hr.inv ht.ne').const_mul GM
  refine ((h2.sub h3).congr_deriv ?_).congr_of_eventuallyEq (Filter.Eventually.of_forall fun s => ?_)
  · simp only [V3.smul_x, V3.smul_y, V3.smul_z, V3.dot]
    have := ht.ne'
    field_simp
    ring
  · simp only [V3.dot, div_eq_mul_inv, Pi.add_apply, Pi.mul_apply, Pi.sub_apply, Pi.inv_apply]

/-- A motion from outside a sphere of radius `ρ` to a distance `p < ρ` takes at least `(ρ - p) / w` from the sphere on, where
`w` is the speed that its energy allows at distance `p`. -/
theorem crosses_sphere_before {GM : ℝ} (hGM : 0 < GM) {R U : ℝ → V3} (h : Spec.TwoBodyMotion GM R U) {T ρ p V : ℝ}
    (hT : 0 < T) (hp : 0 < p) (hpρ : p < ρ) (h0 : ρ < V3.norm (R 0)) (h1 : V3.norm (R T) = p)
    (hE : V3.norm (U 0) ^ 2 / 2 - GM / V3.norm (R 0) = V ^ 2 / 2) :
    ∃ t, 0 < t ∧ t + (ρ - p) / sqrt (V ^ 2 + 2 * GM / p) ≤ T ∧ V3.norm (R t) = ρ := by
  have hc : Continuous fun t => V3.norm (R t) := by
    have hx : Continuous fun t => (R t).x := continuous_iff_continuousAt.mpr fun t => (h t).1.1.continuousAt
    have hy : Continuous fun t => (R t).y := continuous_iff_continuousAt.mpr fun t => (h t).1.2.1.continuousAt
    have hz : Continuous fun t => (R t).z := continuous_iff_continuousAt.mpr fun t => (h t).1.2.2.continuousAt
    unfold V3.norm V3.dot
    exact (((hx.mul hx).add (hy.mul hy)).add (hz.mul hz)).sqrt
  set S : Set ℝ := Set.Icc 0 T ∩ (fun t => V3.norm (R t)) ⁻¹' Set.Iic p with hS
  have hcl : IsCompact S := isCompact_Icc.inter_right (isClosed_Iic.preimage hc)
  obtain ⟨T', ⟨⟨a1, a2⟩, a3⟩, hmin⟩ := hcl.exists_isLeast ⟨T, ⟨hT.le, le_refl _⟩, h1.le⟩
  have hge : ∀ s ∈ Set.Ico 0 T', p < V3.norm (R s) := by
    intro s hs
    by_contra hcon
    exact absurd (hmin ⟨⟨hs.1, hs.2.le.trans a2⟩, not_lt.mp hcon⟩) (not_le.mpr hs.2)
  have hT' : 0 < T' := lt_of_le_of_ne a1 (by rintro rfl; exact absurd a3 (not_le.mpr (hpρ.trans h0)))
  have heq : V3.norm (R T') = p := by
    refine le_antisymm a3 ?_
    by_contra hcon
    obtain ⟨t, ⟨ht0, ht1⟩, ht⟩ := intermediate_value_Icc' hT'.le hc.continuousOn ⟨(not_le.mp hcon).le, (hpρ.trans h0).le⟩
    rcases ht1.lt_or_eq with hlt | rfl
    · exact absurd ht (hge t ⟨ht0, hlt⟩).ne'
    · exact absurd ht (not_le.mp hcon).ne
  have hge' : ∀ s ∈ Set.Icc 0 T', p ≤ V3.norm (R s) := by
    intro s hs
    rcases hs.2.lt_or_eq with hlt | rfl
    · exact (hge s ⟨hs.1, hlt⟩).le
    · exact heq.ge
  have hen : ∀ s ∈ Set.Icc 0 T', V3.dot (U s) (U s) / 2 - GM / V3.norm (R s) = V ^ 2 / 2 := by
    intro s hs
    have := constant_of_has_deriv_right_zero (f := fun s => V3.dot (U s) (U s) / 2 - GM / V3.norm (R s)) (a := 0) (b := T')
      (fun x hx => (twoBody_rates h (hp.trans_le (hge' x hx))).2.continuousAt.continuousWithinAt)
      (fun x hx => (twoBody_rates h (hp.trans_le (hge' x ⟨hx.1, hx.2.le⟩))).2.hasDerivWithinAt) s hs
    rw [this, ← V3.norm_sq, hE]
  set w := sqrt (V ^ 2 + 2 * GM / p) with hw
  have hw0 : 0 < w := sqrt_pos.mpr (by positivity)
  have hsp : ∀ s ∈ Set.Icc 0 T', V3.norm (U s) ≤ w := by
    intro s hs
    refine le_sqrt_of_sq_le ?_
    rw [V3.norm_sq]
    have e1 := hen s hs
    have e2 : GM / V3.norm (R s) ≤ GM / p := div_le_div_of_nonneg_left hGM.le hp (hge' s hs)
    have e3 : 2 * GM / p = 2 * (GM / p) := by ring
    linarith
  obtain ⟨t, ⟨ht0, ht1⟩, ht⟩ := intermediate_value_Icc' hT'.le hc.continuousOn ⟨(heq.trans_lt hpρ).le, h0.le⟩
  have hrate : ∀ s ∈ Set.Icc 0 T', HasDerivAt (fun s => V3.norm (R s) + w * s)
      (V3.dot (R s) (U s) / V3.norm (R s) + w * 1) s := fun s hs =>
    (twoBody_rates h (hp.trans_le (hge' s hs))).1.add ((hasDerivAt_id s).const_mul w)
  have hmono : MonotoneOn (fun s => V3.norm (R s) + w * s) (Set.Icc t T') := by
    refine monotoneOn_of_deriv_nonneg (convex_Icc _ _) (hc.add (continuous_const.mul continuous_id)).continuousOn
      (fun s hs => ?_) (fun s hs => ?_)
    · rw [interior_Icc] at hs
      exact (hrate s ⟨ht0.trans hs.1.le, hs.2.le⟩).differentiableAt.differentiableWithinAt
    · rw [interior_Icc] at hs
      have hs' : s ∈ Set.Icc 0 T' := ⟨ht0.trans hs.1.le, hs.2.le⟩
      rw [(hrate s hs').deriv]
      have hpos : 0 < V3.norm (R s) := hp.trans_le (hge' s hs')
      have c1 := (abs_le.mp (V3.abs_dot_le (R s) (U s))).1
      have c2 : -V3.norm (U s) ≤ V3.dot (R s) (U s) / V3.norm (R s) := by
        rw [le_div_iff₀ hpos]; linarith
      have := hsp s hs'
      linarith
  have hfin : V3.norm (R t) + w * t ≤ V3.norm (R T') + w * T' := hmono ⟨le_refl _, ht1⟩ ⟨ht1, le_refl _⟩ ht1
  refine ⟨t, lt_of_le_of_ne ht0 ?_, ?_, ht⟩
  · rintro rfl; exact absurd ht h0.ne'
  · refine le_trans ?_ a2
    have ht' : V3.norm (R t) = ρ := ht
    rw [ht', heq] at hfin
    have : (ρ - p) / w ≤ T' - t := by rw [div_le_iff₀ hw0]; linarith
    linarith

/-- **C128** (finding), `ProbeOrbiterDeflection`.  Full claim: the probe reaches the entry interface `TOF_probe` days after the
manoeuvre.  In fact there is a motion that takes it to its periapsis in that time, and every motion that does has passed the
interface before; with the manoeuvre's velocity at least (interface radius - periapsis radius) / (speed at periapsis) before. -/
theorem C128_probe_orbiter (name : String) (v : V3) (rp psi rs ps ρ hE : ℝ) (D : ProbeOrbiter) (Hv : V3)
    (hD : ProbeOrbiter.init name v rp psi (some hE) rs ps ρ = .ok D) (hv : v ≠ 0) (hrp : 0 < rp) (hrs : 0 < rs)
    (hH : D.probe.hVec = some Hv) (hne : Hv.x ≠ 0 ∨ Hv.y ≠ 0) (hin : rp < D.P.RP + hE) (hout : D.P.RP + hE < ρ * D.P.RP) :
    ∃ (R1 V1 Rp : V3) (T : ℝ), D.rVec = some R1 ∧ D.vDvProbe = some V1 ∧ D.probe.rpVec = some Rp ∧
      D.tofProbeDays = some T ∧ Spec.Transfer D.P.GM R1 V1 Rp (T * 86400) ∧
      ∀ R U, Spec.TwoBodyMotion D.P.GM R U → R 0 = R1 → R (T * 86400) = Rp →
        V3.norm (R (T * 86400)) < D.P.RP + hE ∧ (∃ t, 0 < t ∧ t < T * 86400 ∧ V3.norm (R t) = D.P.RP + hE) ∧
        (U 0 = V1 → ∃ t, 0 < t ∧ V3.norm (R t) = D.P.RP + hE ∧
          t + (D.P.RP + hE - rp) / sqrt ((V3.norm v * 1e3) ^ 2 + 2 * D.P.GM / rp) ≤ T * 86400) := by
  obtain ⟨R1, V1, Rp, Rs, T1, th, h1, h2, h3, h4, -, -, h5, h6, h7, -, -, -, hEn, h8, -⟩ :=
    C57_probe_orbiter name v rp psi rs ps ρ (some hE) D Hv hD hv hrp hrs hH hne (by linarith)
  refine ⟨R1, V1, Rp, T1, h1, h5, h3, h6, h8, fun R U hm r0 rT => ?_⟩
  have hT : V3.norm (R (T1 * 86400)) < D.P.RP + hE := by rw [rT, h4]; exact hin
  refine ⟨hT, crosses_sphere hm (by positivity) (by rw [r0, h2]; exact hout) hT, fun u0 => ?_⟩
  obtain ⟨t, t1, t2, t3⟩ := crosses_sphere_before (V := V3.norm v * 1e3)
    (C01_planet_consistent name D.P (probeOrbiter_inv hD).1).2.2.1 hm (T := T1 * 86400) (by positivity) hrp hin (by rw [r0, h2]; exact hout)
    (by rw [rT, h4]) (by rw [u0, r0]; exact hEn)
  exact ⟨t, t1, t3, t2⟩

/-- **C128** (finding), first probe of `ProbeProbeDeflection`. -/
theorem C128_probe_probe (name : String) (v : V3) (rp psi rs ps ρ hE : ℝ) (hE2 : Option ℝ) (D : ProbeProbe) (Hv : V3)
    (hD : ProbeProbe.init name v rp psi (some hE) rs ps hE2 ρ = .ok D) (hv : v ≠ 0) (hrp : 0 < rp) (hrs : 0 < rs)
    (hH : D.probe1.hVec = some Hv) (hne : Hv.x ≠ 0 ∨ Hv.y ≠ 0) (hin : rp < D.P.RP + hE) (hout : D.P.RP + hE < ρ * D.P.RP)
    (hr2 : rs < ρ * D.P.RP) :
    ∃ (R1 V1 Rp : V3) (T : ℝ), D.rVec = some R1 ∧ D.vDv1 = some V1 ∧ D.probe1.rpVec = some Rp ∧
      D.tof1Days = some T ∧ Spec.Transfer D.P.GM R1 V1 Rp (T * 86400) ∧
      ∀ R U, Spec.TwoBodyMotion D.P.GM R U → R 0 = R1 → R (T * 86400) = Rp →
        V3.norm (R (T * 86400)) < D.P.RP + hE ∧ (∃ t, 0 < t ∧ t < T * 86400 ∧ V3.norm (R t) = D.P.RP + hE) ∧
        (U 0 = V1 → ∃ t, 0 < t ∧ V3.norm (R t) = D.P.RP + hE ∧
          t + (D.P.RP + hE - rp) / sqrt ((V3.norm v * 1e3) ^ 2 + 2 * D.P.GM / rp) ≤ T * 86400) := by
  obtain ⟨R1, V1, Rp, Rs, V2, T1, T2, δ2, h1, h2, h3, -, h5, h6, h7, h8, -⟩ :=
    C57_probe_probe_partial name v rp psi rs ps ρ (some hE) hE2 D Hv hD hv hrp hrs hH hne (by linarith) hr2
  have hn : V3.norm Rp = rp := by
    obtain ⟨hP, hA, hS, hρ⟩ := probeProbe_inv hD
    obtain ⟨aP, sP, av, sv, arp, srp, -, -⟩ := same_arrival hP hA hS
    obtain ⟨V, e, b, h, d, u, w, H⟩ := core_of hP aP hv av (by rw [arp]; exact hrp)
    rw [LegCore.rpVec H] at h3
    obtain rfl := Option.some.inj h3
    rw [V3.norm_smul, V3.norm_of_dot_one H.uu, mul_one, abs_of_pos H.rp, arp]
  have hEn : V3.norm V1 ^ 2 / 2 - D.P.GM / V3.norm R1 = (V3.norm v * 1e3) ^ 2 / 2 := by
    obtain ⟨hP, hA, hS, hρ⟩ := probeProbe_inv hD
    obtain ⟨aP, sP, av, sv, arp, srp, -, -⟩ := same_arrival hP hA hS
    obtain ⟨V, e, b, h, d, u, w, H⟩ := core_of hP aP hv av (by rw [arp]; exact hrp)
    have hw := core_w H hH hne
    have hrd : D.rDv = ρ * D.P.RP := by unfold ProbeProbe.rDv; rw [hρ]
    obtain ⟨a, n, k, δ, L, -⟩ := leg_core H (r := D.rDv) (by rw [arp, hrd]; linarith)
    have hR1 := L.rvec H hw
    have e1 := h1.symm.trans hR1
    have hown := L.vProbe_own H
    have e2 : D.vDv1 = some (cVel (D.probe1.P.GM / h) e u (V3.cross w u) (-δ)) := by
      unfold ProbeProbe.vDv1 ProbeProbe.rVec
      rw [hR1]
      simp only [bind, Option.bind]
      exact hown
    rw [h5] at e2
    obtain rfl := Option.some.inj e1
    obtain rfl := Option.some.inj e2
    obtain ⟨-, -, -, -, l5, -, -⟩ := Core.laws H L.den'
    have hrad : h ^ 2 / D.probe1.P.GM / (1 + e * cos (-δ)) = D.rDv := by rw [L.semi, cos_neg, ← L.hr]
    rw [hrad] at l5
    have hVe : V = V3.norm v * 1e3 := by rw [H.hV]; unfold Approach.vInfMag; rw [av]
    rw [V3.norm_sq, l5, L.rnorm H, ← hVe, aP]; ring
  refine ⟨R1, V1, Rp, T1, h1, h5, h3, h6, h8, fun R U hm r0 rT => ?_⟩
  have hT : V3.norm (R (T1 * 86400)) < D.P.RP + hE := by rw [rT, hn]; exact hin
  refine ⟨hT, crosses_sphere hm (by positivity) (by rw [r0, h2]; exact hout) hT, fun u0 => ?_⟩
  obtain ⟨t, t1, t2, t3⟩ := crosses_sphere_before (V := V3.norm v * 1e3)
    (C01_planet_consistent name D.P (probeProbe_inv hD).1).2.2.1 hm (T := T1 * 86400) (by positivity) hrp hin (by rw [r0, h2]; exact hout)
    (by rw [rT, hn]) (by rw [u0, r0]; exact hEn)
  exact ⟨t, t1, t3, t2⟩

/-- Cases of `C128_probe_orbiter` and `C128_probe_probe`: the missions to Earth of C57 with entry at 120 km. -/
example : (∃ D T, ProbeOrbiter.init "EARTH" ⟨0, 10, 0⟩ 6371e3 0 (some 120e3) 8000e3 (π / 2) 50 = .ok D ∧
      D.tofProbeDays = some T ∧ ∃ R U, Spec.TwoBodyMotion D.P.GM R U ∧ D.rVec = some (R 0) ∧ D.vDvProbe = some (U 0) ∧
        ∃ t, 0 < t ∧ t < T * 86400 ∧ V3.norm (R t) = D.P.RP + 120e3) ∧
    ∃ D T, ProbeProbe.init "EARTH" ⟨0, 10, 0⟩ 6371e3 0 (some 120e3) 6371e3 (0 + π) (some 120e3) 50 = .ok D ∧
      D.tof1Days = some T ∧ ∃ R U, Spec.TwoBodyMotion D.P.GM R U ∧ D.rVec = some (R 0) ∧ D.vDv1 = some (U 0) ∧
        ∃ t, 0 < t ∧ t < T * 86400 ∧ V3.norm (R t) = D.P.RP + 120e3 := by
  have hRP : ∀ P : Planet, Planet.init "EARTH" = .ok P → P.RP = 6371e3 := by
    intro P hP
    simp [Planet.init] at hP; subst hP; rfl
  constructor
  · obtain ⟨D, Hv, -, -, h1, h2, h3, h4, h5, -⟩ := earth_probe_orbiter
    have hR := hRP _ (probeOrbiter_inv h1).1
    obtain ⟨R1, V1, Rp, T, g1, g2, g3, g4, ⟨R, U, m1, m2, m3, m4, -⟩, g6⟩ := C128_probe_orbiter _ _ _ _ _ _ _ _ D Hv h1 h2
      (by norm_num) (by norm_num) h3 h4 (by rw [hR]; norm_num) (by rw [hR]; norm_num)
    exact ⟨D, T, h1, g4, R, U, m1, by rw [g1, m2], by rw [g2, m3], (g6 R U m1 m2 m4).2.1⟩
  · obtain ⟨D, Hv, h1, h2, h3, h4, h5⟩ := earth_two_probes
    have hR := hRP _ (probeProbe_inv h1).1
    obtain ⟨R1, V1, Rp, T, g1, g2, g3, g4, ⟨R, U, m1, m2, m3, m4, -⟩, g6⟩ := C128_probe_probe _ _ _ _ _ _ _ _ _ D Hv h1 h2
      (by norm_num) (by norm_num) h3 h4 (by rw [hR]; norm_num) (by rw [hR]; norm_num) h5
    exact ⟨D, T, h1, g4, R, U, m1, by rw [g1, m2], by rw [g2, m3], (g6 R U m1 m2 m4).2.1⟩

end AMAT.Props
