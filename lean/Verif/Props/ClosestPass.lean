import Verif.Props.Deflected

/-
Property C152: how close a deflected orbiter comes to the planet.
-/

noncomputable section

open Real

namespace AMAT.Props

open Real AMAT AMAT.Spec AMAT.Lits

/-- A motion with positive energy and angular momentum has one closest point; it moves inward before and outward after it. -/
theorem closest_point {GM E : ℝ} (hGM : 0 < GM) (hE : 0 < E) {R U : ℝ → V3} (h : TwoBodyMotion GM R U)
    (hc : V3.cross (R 0) (U 0) ≠ 0) (he : energy GM (R 0) (U 0) = E) :
    ∃ T, V3.dot (R T) (U T) = 0 ∧ (∀ s < T, V3.dot (R s) (U s) < 0) ∧ (∀ s, T < s → 0 < V3.dot (R s) (U s)) ∧
      ∀ s, s ≠ T → V3.norm (R T) < V3.norm (R s) := by
  have hpos := out_of_cross h hc
  have hen : ∀ t, energy GM (R t) (U t) = E := fun t => (energy_keeps h hpos t).trans he
  set g := fun t => V3.dot (R t) (U t) with hg
  have hd : ∀ t, HasDerivAt g (2 * E + GM / V3.norm (R t)) t := fun t => by
    obtain ⟨⟨rx, ry, rz⟩, ux, uy, uz⟩ := h t
    refine (((rx.mul ux).add (ry.mul uy)).add (rz.mul uz)).congr_deriv ?_
    have h1 := hen t
    unfold energy at h1
    rw [V3.norm_sq] at h1
    have h2 : V3.dot (R t) (R t) = V3.norm (R t) ^ 2 := (V3.norm_sq _).symm
    have h3 := hpos t
    have h4 : (-GM / V3.norm (R t) ^ 3) * V3.dot (R t) (R t) = -(GM / V3.norm (R t)) := by rw [h2]; field_simp
    have h5 : V3.dot (U t) (U t) + (-GM / V3.norm (R t) ^ 3) * V3.dot (R t) (R t) = 2 * E + GM / V3.norm (R t) := by
      rw [h4]; linear_combination 2 * h1
    rw [← h5]
    simp only [V3.dot, V3.smul_x, V3.smul_y, V3.smul_z]; ring
  have hcont : Continuous g := continuous_iff_continuousAt.mpr fun t => (hd t).continuousAt
  have hlow : ∀ t, 2 * E ≤ 2 * E + GM / V3.norm (R t) := fun t => by
    have := div_pos hGM (hpos t)
    linarith
  have hgrow : ∀ x y, x ≤ y → 2 * E * (y - x) ≤ g y - g x := by
    intro x y hxy
    have hm : Monotone fun t => g t - 2 * E * t := by
      refine monotone_of_hasDerivAt_nonneg (f' := fun t => 2 * E + GM / V3.norm (R t) - 2 * E) (fun t => ?_) fun t => ?_
      · have h2 : HasDerivAt (fun t : ℝ => 2 * E * t) (2 * E) t := by
          simpa using (hasDerivAt_id t).const_mul (2 * E)
        exact (hd t).sub h2
      · have := hlow t
        simp only [Pi.zero_apply]
        linarith
    have := hm hxy
    simp only at this
    linarith
  have hmono : StrictMono g := fun x y hxy => by
    have := hgrow x y hxy.le
    have : 0 < 2 * E * (y - x) := mul_pos (by linarith) (by linarith)
    linarith
  -- a zero
  obtain ⟨T, hT⟩ : ∃ T, g T = 0 := by
    have k0 : 0 ≤ |g 0| / (2 * E) := by positivity
    have a1 := hgrow 0 (|g 0| / (2 * E)) k0
    have a2 := hgrow (-(|g 0| / (2 * E))) 0 (by linarith)
    have e1 : 2 * E * (|g 0| / (2 * E) - 0) = |g 0| := by field_simp; ring
    have e2 : 2 * E * (0 - -(|g 0| / (2 * E))) = |g 0| := by field_simp; ring
    rw [e1] at a1
    rw [e2] at a2
    have b1 := neg_abs_le (g 0)
    have b2 := le_abs_self (g 0)
    obtain ⟨T, -, hT⟩ := intermediate_value_Icc (by linarith : -(|g 0| / (2 * E)) ≤ |g 0| / (2 * E)) hcont.continuousOn
      (show (0:ℝ) ∈ Set.Icc _ _ from ⟨by linarith, by linarith⟩)
    exact ⟨T, hT⟩
  have hbef : ∀ s < T, g s < 0 := fun s hs => by rw [← hT]; exact hmono hs
  have haft : ∀ s, T < s → 0 < g s := fun s hs => by rw [← hT]; exact hmono hs
  have hr : ∀ t, HasDerivAt (fun s => V3.norm (R s)) (g t / V3.norm (R t)) t := fun t => (twoBody_rates h (hpos t)).1
  have hrc : Continuous fun s => V3.norm (R s) := continuous_iff_continuousAt.mpr fun t => (hr t).continuousAt
  refine ⟨T, hT, hbef, haft, fun s hs => ?_⟩
  rcases lt_or_gt_of_ne hs with hlt | hlt
  · have ha : StrictAntiOn (fun s => V3.norm (R s)) (Set.Iic T) := by
      refine strictAntiOn_of_deriv_neg (convex_Iic T) hrc.continuousOn fun x hx => ?_
      rw [interior_Iic] at hx
      rw [(hr x).deriv]
      exact div_neg_of_neg_of_pos (hbef x hx) (hpos x)
    exact ha hlt.le (Set.mem_Iic.mpr le_rfl) hlt
  · have ha : StrictMonoOn (fun s => V3.norm (R s)) (Set.Ici T) := by
      refine strictMonoOn_of_deriv_pos (convex_Ici T) hrc.continuousOn fun x hx => ?_
      rw [interior_Ici] at hx
      rw [(hr x).deriv]
      exact div_pos (haft x hx) (hpos x)
    exact ha (Set.mem_Ici.mpr le_rfl) hlt.le hlt

/-- The distance of the closest point. -/
theorem closest_radius {GM V p : ℝ} (hGM : 0 < GM) (hV : 0 < V) {R U : ℝ → V3} (h : TwoBodyMotion GM R U) (hp : 0 < p)
    (hc : V3.dot (V3.cross (R 0) (U 0)) (V3.cross (R 0) (U 0)) = GM * p) (he : energy GM (R 0) (U 0) = V ^ 2 / 2) {T : ℝ}
    (hT : V3.dot (R T) (U T) = 0) : V3.norm (R T) = GM / V ^ 2 * (√(1 + p / (GM / V ^ 2)) - 1) := by
  have hc0 : V3.cross (R 0) (U 0) ≠ 0 := by
    intro h0
    rw [h0] at hc
    have : V3.dot (0 : V3) 0 = 0 := by simp [V3.dot]
    rw [this] at hc
    have := mul_pos hGM hp
    linarith
  have hpos := out_of_cross h hc0
  have hen := (energy_keeps h hpos T).trans he
  rw [← cross_const h T, V3.dot_cross_self, hT] at hc
  unfold energy at hen
  have hR := V3.norm_sq (R T)
  have hU := V3.norm_sq (U T)
  have hρ := hpos T
  rw [← hR, ← hU] at hc
  generalize V3.norm (R T) = ρ at *
  generalize V3.norm (U T) = y at *
  set a := GM / V ^ 2 with ha
  have ha0 : 0 < a := by positivity
  have hga : GM = a * V ^ 2 := by rw [ha]; field_simp
  have hy : y ^ 2 * ρ = V ^ 2 * ρ + 2 * GM := by
    have : y ^ 2 / 2 * ρ - GM = V ^ 2 / 2 * ρ := by rw [← hen]; field_simp
    linear_combination 2 * this
  have h2 : (ρ + a) ^ 2 = a ^ 2 + a * p := by
    have h3 : V ^ 2 * ((ρ + a) ^ 2) = V ^ 2 * (a ^ 2 + a * p) := by
      rw [hga] at hy hc
      linear_combination hc - ρ * hy
    exact mul_left_cancel₀ (by positivity) h3
  have h4 : √(1 + p / a) = (ρ + a) / a := by
    rw [show 1 + p / a = ((ρ + a) / a) ^ 2 by rw [div_pow, h2]; field_simp, sqrt_sq (by positivity)]
  rw [h4]
  field_simp
  ring

/-- What the stored `P` of a leg says about the velocity. -/
theorem legP_spec {S : Approach} {V e b h : ℝ} {d u w : V3} (H : ApproachCore S V e b h d u w) {r : ℝ} {R1 V2 : V3}
    (hr : 0 < r) (hR1 : V3.norm R1 = r) (hnc : V3.cross R1 (S.rp • u) ≠ 0)
    (hV2 : Maneuver.vSpace S r R1 ((1 / r) • R1) = some V2) :
    ∃ P, 0 < P ∧ Maneuver.legP S r ((1 / r) • R1) = some P ∧ V3.dot (V3.cross R1 V2) (V3.cross R1 V2) = S.P.GM * P := by
  obtain ⟨δ, P, C, s, al, be, f, g, T2, q1, q2, q3, q4, q5, q6, q7, q8, q9, q10, -⟩ := space_leg H hr hR1 hnc
  have hg := H.gm; have hrp := H.rp
  have e2 : V2 = (1 / g) • (S.rp • u - f • R1) := Option.some.inj (hV2.symm.trans q10)
  have hsq : 0 ≤ S.P.GM * P ∧ √(S.P.GM * P) ≠ 0 ∧ g = r * S.rp / √(S.P.GM * P) * sin δ := by
    unfold Maneuver.gCoef npSqrt npDiv at q8
    by_cases h1 : 0 ≤ S.P.GM * P
    · by_cases h2 : √(S.P.GM * P) = 0
      · simp [h1, h2] at q8
      · simp only [if_pos h1, if_neg h2, bind, Option.bind] at q8
        exact ⟨h1, h2, (Option.some.inj q8).symm⟩
    · simp [h1] at q8
  obtain ⟨h1, h2, h3⟩ := hsq
  have hsp : 0 < √(S.P.GM * P) := lt_of_le_of_ne (sqrt_nonneg _) (Ne.symm h2)
  have hGP : 0 < S.P.GM * P := sqrt_pos.mp hsp
  have hP : 0 < P := (mul_pos_iff_of_pos_left hg).mp hGP
  have hs : 0 < sin δ := sin_pos_of_pos_of_lt_pi q2 q3
  refine ⟨P, hP, ?_, ?_⟩
  · unfold Maneuver.legP
    rw [q1, H.ha]
    simp only [bind, Option.bind]
    rw [q5]
    exact q6
  · have hcr : V3.cross R1 V2 = (S.rp / g) • V3.cross R1 u := by
      rw [e2]
      ext <;> simp only [V3.cross, V3.sub_x, V3.sub_y, V3.sub_z, V3.smul_x, V3.smul_y, V3.smul_z] <;> ring
    rw [hcr, V3.dot_smul_left, V3.dot_smul_right, V3.dot_cross_self, H.uu, V3.dot_comm R1 u, q4, ← V3.norm_sq, hR1]
    have h5 : r ^ 2 * 1 - (r * cos δ) ^ 2 = (r * sin δ) ^ 2 := by
      linear_combination (-r ^ 2) * sin_sq_add_cos_sq δ
    rw [h5]
    have h6 : S.rp / g * (r * sin δ) = √(S.P.GM * P) := by
      rw [h3]
      field_simp
    calc S.rp / g * (S.rp / g * (r * sin δ) ^ 2) = (S.rp / g * (r * sin δ)) ^ 2 := by ring
      _ = S.P.GM * P := by rw [h6, sq_sqrt h1]

/-- The closest pass of a motion on a leg. -/
theorem closest_core {name : String} {v : V3} {rp psi rs ps : ℝ} {b1 b2 : Bool} {h1 h2 : Option ℝ} {A S : Approach} {P : Planet}
    (hP : Planet.init name = .ok P) (hA : Approach.init name v rp psi b1 h1 = .ok A)
    (hS : Approach.init name v rs ps b2 h2 = .ok S) (hv : v ≠ 0) (hrs : 0 < rs) {r T2 : ℝ} (hr : 0 < r)
    {R1 V2 Rs : V3} (hn : V3.norm R1 = r)
    (hRs : S.rpVec = some Rs) (hc : V3.cross R1 Rs ≠ 0) (hV2 : Maneuver.vSpace S r R1 ((1 / r) • R1) = some V2)
    (hE : V3.norm V2 ^ 2 / 2 - P.GM / V3.norm R1 = (V3.norm v * 1e3) ^ 2 / 2) (hT2 : 0 < T2) (hT : Transfer P.GM R1 V2 Rs T2)
    {R U : ℝ → V3} (hs : StartsAt P.GM R1 V2 R U) :
    ∃ p a T, Maneuver.legP S r ((1 / r) • R1) = some p ∧ S.a = some a ∧ 0 < p ∧ a < 0 ∧
      V3.norm (R T) = |a| * (√(1 + p / |a|) - 1) ∧ (∀ s, s ≠ T → V3.norm (R T) < V3.norm (R s)) ∧ (rs < r → 0 < T) := by
  obtain ⟨aP, sP, av, sv, arp, srp, -, -⟩ := same_arrival hP hA hS
  obtain ⟨V, e, b, h, d, u, w, H⟩ := core_of hP sP hv sv (by rw [srp]; exact hrs)
  have hg := H.gm; have hV := H.vpos
  rw [sP] at hg
  have e2 : Rs = S.rp • u := Option.some.inj (hRs.symm.trans (LegCore.rpVec H))
  have hVe : V = V3.norm v * 1e3 := by rw [H.hV]; unfold Approach.vInfMag; rw [sv]
  obtain ⟨p, hp, hlp, hcr⟩ := legP_spec H hr hn (by rw [← e2]; exact hc) hV2
  have hcr0 := cross_of_transfer hT hc
  have hen : energy P.GM (R 0) (U 0) = V ^ 2 / 2 := by rw [hs.2.1, hs.2.2, hVe]; exact hE
  have hVp : 0 < V ^ 2 / 2 := by positivity
  obtain ⟨T, k1, k2, k3, k4⟩ := closest_point hg hVp hs.1 (by rw [hs.2.1, hs.2.2]; exact hcr0) hen
  have hrad := closest_radius hg hV hs.1 hp (by rw [hs.2.1, hs.2.2, hcr, sP]) hen k1
  have habs : |(-S.P.GM / V ^ 2)| = P.GM / V ^ 2 := by
    rw [sP, neg_div, abs_neg, abs_of_pos (by positivity)]
  refine ⟨p, _, T, hlp, H.ha, hp, ?_, by rw [habs]; exact hrad, k4, fun hlt => ?_⟩
  · rw [sP, neg_div]
    have : 0 < P.GM / V ^ 2 := by positivity
    linarith
  · by_contra hT0
    push Not at hT0
    have hpos := out_of_cross hs.1 (by rw [hs.2.1, hs.2.2]; exact hcr0)
    have hr' : ∀ t, HasDerivAt (fun s => V3.norm (R s)) (V3.dot (R t) (U t) / V3.norm (R t)) t := fun t =>
      (twoBody_rates hs.1 (hpos t)).1
    have ha : StrictMonoOn (fun s => V3.norm (R s)) (Set.Ici T) := by
      refine strictMonoOn_of_deriv_pos (convex_Ici T) (fun t _ => (hr' t).continuousAt.continuousWithinAt) fun x hx => ?_
      rw [interior_Ici] at hx
      rw [(hr' x).deriv]
      exact div_pos (k3 x hx) (hpos x)
    have h2 := ha (Set.mem_Ici.mpr hT0) (Set.mem_Ici.mpr (by linarith)) hT2
    simp only at h2
    rw [hs.2.1, hn, (transfer_all hT hcr0).2 R U hs, e2, V3.norm_smul, V3.norm_of_dot_one H.uu, mul_one, srp, abs_of_pos hrs] at h2
    linarith

/-- C152 for `ProbeOrbiterDeflection`: after the reported burn every motion comes closest to the planet at the distance
`|a| (√(1 + P_space / |a|) - 1)`, with `a` the semi-major axis of the orbiter's approach, and, if the aim radius is below the
manoeuvre radius, after the burn. -/
theorem C152_closest_pass (name : String) (v : V3) (rp psi rs ps ρ : ℝ) (hEI : Option ℝ) (D : ProbeOrbiter) (Hv R1 V1 Rs dv : V3)
    (hD : ProbeOrbiter.init name v rp psi hEI rs ps ρ = .ok D) (hv : v ≠ 0) (hrp : 0 < rp) (hrs : 0 < rs)
    (hH : D.probe.hVec = some Hv) (hne : Hv.x ≠ 0 ∨ Hv.y ≠ 0) (hr : rp < ρ * D.P.RP) (hR1 : D.rVec = some R1)
    (hV1 : D.vDvProbe = some V1) (hRs : D.space.rpVec = some Rs) (hc : V3.cross R1 Rs ≠ 0) (hdv : D.dvVec = some dv)
    (R U : ℝ → V3) (hs : StartsAt D.P.GM R1 (V1 + dv) R U) :
    ∃ p a T, D.pSpaceAttr = some p ∧ D.space.a = some a ∧ 0 < p ∧ a < 0 ∧ V3.norm (R T) = |a| * (√(1 + p / |a|) - 1) ∧
      (∀ s, s ≠ T → V3.norm (R T) < V3.norm (R s)) ∧ (rs < ρ * D.P.RP → 0 < T) := by
  obtain ⟨R1', V1', Rp, Rs', T1, th, f1, f2, f3, f4, f5, f6, f7, f8, f9, f10, f11, -, -, f14, f15⟩ :=
    C57_probe_orbiter name v rp psi rs ps ρ hEI D Hv hD hv hrp hrs hH hne hr
  obtain ⟨hP, hA, hS, hρ⟩ := probeOrbiter_inv hD
  have hrd : D.rDv = ρ * D.P.RP := by unfold ProbeOrbiter.rDv; rw [hρ]
  obtain rfl := Option.some.inj (f1.symm.trans hR1)
  obtain rfl := Option.some.inj (f5.symm.trans hRs)
  obtain rfl := Option.some.inj (f7.symm.trans hV1)
  obtain ⟨V2, T2', g1, g2, g3, g4, g5, g6, g7⟩ := f15 hc
  obtain rfl := Option.some.inj (g6.symm.trans hdv)
  have hV2 : V1' + (V2 - V1') = V2 := by ext <;> simp
  rw [hV2] at hs
  rw [← hrd] at f2 ⊢
  have hr0 : 0 < D.rDv := by rw [hrd]; linarith
  have hru := rVecDvUnit_eq hR1 hr0 f2
  have g1' : Maneuver.vSpace D.space D.rDv R1' ((1 / D.rDv) • R1') = some V2 := by
    unfold ProbeOrbiter.vDvSpace at g1
    rw [hR1, hru] at g1
    exact g1
  obtain ⟨p, a, T, k1, k⟩ := closest_core hP hA hS hv hrs hr0 f2 hRs hc g1' g4 (by positivity) g5 hs
  refine ⟨p, a, T, ?_, k⟩
  unfold ProbeOrbiter.pSpaceAttr
  rw [hru]
  exact k1

/-- C152 for `OrbiterOrbiterDeflection`. -/
theorem C152_second_closest_pass (name : String) (v : V3) (rp psi rs ps ρ : ℝ) (D : OrbiterOrbiter) (Hv R1 V1 Rs dv : V3)
    (hD : OrbiterOrbiter.init name v rp psi rs ps ρ = .ok D) (hv : v ≠ 0) (hrp : 0 < rp) (hrs : 0 < rs)
    (hH : D.space1.hVec = some Hv) (hne : Hv.x ≠ 0 ∨ Hv.y ≠ 0) (hr : rp < ρ * D.P.RP) (hR1 : D.rVec = some R1)
    (hV1 : D.vDv1 = some V1) (hRs : D.space2.rpVec = some Rs) (hc : V3.cross R1 Rs ≠ 0) (hdv : D.dvVec = some dv)
    (R U : ℝ → V3) (hs : StartsAt D.P.GM R1 (V1 + dv) R U) :
    ∃ p a T, D.pSpace2Attr = some p ∧ D.space2.a = some a ∧ 0 < p ∧ a < 0 ∧ V3.norm (R T) = |a| * (√(1 + p / |a|) - 1) ∧
      (∀ s, s ≠ T → V3.norm (R T) < V3.norm (R s)) ∧ (rs < ρ * D.P.RP → 0 < T) := by
  obtain ⟨R1', V1', Rp, Rs', T1, th, f1, f2, f3, f5, f7, f8, f9, f10, f11, f14, f15⟩ :=
    C57_orbiter_orbiter name v rp psi rs ps ρ D Hv hD hv hrp hrs hH hne hr
  obtain ⟨hP, hA, hS, hρ⟩ := orbiterOrbiter_inv hD
  have hrd : D.rDv = ρ * D.P.RP := by unfold OrbiterOrbiter.rDv; rw [hρ]
  obtain rfl := Option.some.inj (f1.symm.trans hR1)
  obtain rfl := Option.some.inj (f5.symm.trans hRs)
  obtain rfl := Option.some.inj (f7.symm.trans hV1)
  obtain ⟨V2, T2', g1, g2, g3, g4, g5, g6, g7⟩ := f15 hc
  obtain rfl := Option.some.inj (g6.symm.trans hdv)
  have hV2 : V1' + (V2 - V1') = V2 := by ext <;> simp
  rw [hV2] at hs
  rw [← hrd] at f2 ⊢
  have hr0 : 0 < D.rDv := by rw [hrd]; linarith
  have hru := rVecDvUnit_eq hR1 hr0 f2
  have g1' : Maneuver.vSpace D.space2 D.rDv R1' ((1 / D.rDv) • R1') = some V2 := by
    unfold OrbiterOrbiter.vDv2 at g1
    rw [hR1, hru] at g1
    exact g1
  obtain ⟨p, a, T, k1, k⟩ := closest_core hP hA hS hv hrs hr0 f2 hRs hc g1' g4 (by positivity) g5 hs
  refine ⟨p, a, T, ?_, k⟩
  unfold OrbiterOrbiter.pSpace2Attr
  rw [hru]
  exact k1

/-- Case for C152: the probe and the orbiter at Earth of C151, whose orbiter comes closest below 8000 km. -/
example : ∃ (D : ProbeOrbiter) (p a : ℝ),
    ProbeOrbiter.init "EARTH" ⟨0, 10, 0⟩ 6371e3 0 (some 120e3) 8000e3 (π / 2) 50 = .ok D ∧ D.pSpaceAttr = some p ∧
    D.space.a = some a ∧ |a| * (√(1 + p / |a|) - 1) < 8000e3 := by
  obtain ⟨D, Hv, R1, Rs, hD, hv, hH, hne, hr, hR1, hRs, hc⟩ := earth_probe_orbiter
  obtain ⟨R1', V1, Rp, Rs', T1, f1, -, f3, -, f5, -, -, -, -, -, -, f⟩ :=
    C151_deflection_flown_partial _ _ _ _ _ _ _ _ D Hv hD hv (by norm_num) (by norm_num) hH hne hr
  obtain rfl := Option.some.inj (f1.symm.trans hR1)
  obtain rfl := Option.some.inj (f5.symm.trans hRs)
  obtain ⟨dv, T2, g1, -, g2, -, ⟨R, U, m⟩, -⟩ := f hc
  obtain ⟨-, s, hs⟩ := C151_below_aim _ _ _ _ _ _ _ _ D Hv _ V1 _ dv T2 hD hv (by norm_num) (by norm_num) (by norm_num) hH hne hr hR1 f3
    hRs hc g1 g2 R U m
  obtain ⟨p, a, T, k1, k2, -, -, k3, k4, -⟩ := C152_closest_pass _ _ _ _ _ _ _ _ D Hv _ V1 _ dv hD hv (by norm_num) (by norm_num) hH hne hr
    hR1 f3 hRs hc g1 R U m
  refine ⟨D, p, a, hD, k1, k2, ?_⟩
  rw [← k3]
  by_cases hsT : s = T
  · rw [← hsT]; exact hs
  · exact lt_trans (k4 s hsT) hs

/-- Case for two orbiters. -/
example : ∃ (D : OrbiterOrbiter) (p a : ℝ),
    OrbiterOrbiter.init "EARTH" ⟨0, 10, 0⟩ 6371e3 0 8000e3 (π / 2) 50 = .ok D ∧ D.pSpace2Attr = some p ∧
    D.space2.a = some a ∧ |a| * (√(1 + p / |a|) - 1) < 8000e3 := by
  obtain ⟨D, Hv, R1, Rs, hD, hv, hH, hne, hr, hR1, hRs, hc⟩ := earth_orbiters
  obtain ⟨R1', V1, Rp, Rs', T1, f1, -, f3, -, f5, -, -, -, -, -, -, f⟩ :=
    C151_orbiters_flown_partial _ _ _ _ _ _ _ D Hv hD hv (by norm_num) (by norm_num) hH hne hr
  obtain rfl := Option.some.inj (f1.symm.trans hR1)
  obtain rfl := Option.some.inj (f5.symm.trans hRs)
  obtain ⟨dv, T2, g1, -, g2, -, ⟨R, U, m⟩, -⟩ := f hc
  obtain ⟨-, s, hs⟩ := C151_second_below_aim _ _ _ _ _ _ _ D Hv _ V1 _ dv T2 hD hv (by norm_num) (by norm_num) (by norm_num) hH hne hr
    hR1 f3 hRs hc g1 g2 R U m
  obtain ⟨p, a, T, k1, k2, -, -, k3, k4, -⟩ := C152_second_closest_pass _ _ _ _ _ _ _ D Hv _ V1 _ dv hD hv (by norm_num) (by norm_num) hH hne
    hr hR1 f3 hRs hc g1 R U m
  refine ⟨D, p, a, hD, k1, k2, ?_⟩
  rw [← k3]
  by_cases hsT : s = T
  · rw [← hsT]; exact hs
  · exact lt_trans (k4 s hsT) hs

end AMAT.Props
