import Verif.Props.ExitMotion
import Verif.Props.OrbitArrays

/-
Property C155: the flight of an orbiter after its deflection from the orbit it shares with a probe.
-/

noncomputable section

open Real

namespace AMAT.Props

open Real AMAT AMAT.Spec

/-- A bound motion keeps between its apsides and comes to both of them again and again. -/
theorem bound_flight {GM : ℝ} (hGM : 0 < GM) {R0 U0 : V3} (hE : energy GM R0 U0 < 0) (hh : 0 < angMom R0 U0) {a e : ℝ}
    (ha : a = -GM / (2 * energy GM R0 U0)) (he : e = V3.norm (eccVec GM R0 U0)) {R U : ℝ → V3} (hs : StartsAt GM R0 U0 R U) :
    (∀ s, a * (1 - e) ≤ V3.norm (R s) ∧ V3.norm (R s) ≤ a * (1 + e)) ∧
    ∀ s, (∃ s', s < s' ∧ V3.norm (R s') = a * (1 - e)) ∧ ∃ s', s < s' ∧ V3.norm (R s') = a * (1 + e) := by
  obtain ⟨e', u, w, t, he0, he2, hu, hw, huw, hden, hpos, hvel⟩ := polar_state hGM hh
  have hR0 : R0 ≠ 0 := by
    rintro rfl
    have : angMom 0 U0 = 0 := V3.norm_eq_zero.mpr (by ext <;> simp [V3.cross])
    rw [this] at hh
    exact lt_irrefl _ hh
  obtain rfl : e' = e := by
    have h1 := ecc_sq hGM hR0 U0
    rw [← V3.norm_sq, ← he] at h1
    have h2 : e' ^ 2 = e ^ 2 := by rw [he2, h1]; rfl
    exact (pow_left_inj₀ he0 (by rw [he]; exact V3.norm_nonneg _) two_ne_zero).mp h2
  set h := angMom R0 U0 with hhd
  set E := energy GM R0 U0 with hEd
  have he1 : e' < 1 := by
    have : 2 * E * h ^ 2 / GM ^ 2 < 0 := by
      apply div_neg_of_neg_of_pos _ (by positivity)
      exact mul_neg_of_neg_of_pos (by linarith) (by positivity)
    nlinarith
  have ha0 : 0 < a := by rw [ha]; exact div_pos_of_neg_of_neg (by linarith) (by linarith)
  have hpa : h ^ 2 / GM = a * (1 - e' ^ 2) := by
    rw [he2, ha]
    have : E ≠ 0 := hE.ne
    field_simp
    ring
  have hp : 0 < h ^ 2 / GM := by positivity
  obtain ⟨-, cl⟩ := conic_clock (e := e') hGM hh (by linarith) he1 hu hw huw t
  have clock := cl R U hs.1 (hs.2.1.trans hpos.symm) (hs.2.2.trans hvel.symm)
  set T := anomalyTime (h ^ 2 / GM) e' h t with hT
  have hmono : StrictMono T := anomalyTime_mono hp (by linarith) he1 hh t
  have hsurj : Function.Surjective T := anomalyTime_surj hp (by linarith) he1 hh t
  have hn : ∀ x, V3.norm (R (T x)) = h ^ 2 / GM / (1 + e' * cos x) := fun x => by
    rw [(clock x).1, cPos_norm hu hw huw (by linarith) he1 ha0 hpa]
  have hd : ∀ x, 0 < 1 + e' * cos x := fun x => (conic_rad (by linarith) he1 ha0 hpa).1
  have hfac : h ^ 2 / GM = a * (1 - e') * (1 + e') := by rw [hpa]; ring
  have hA : 0 < a * (1 - e') := mul_pos ha0 (by linarith)
  have hB : 0 < a * (1 + e') := mul_pos ha0 (by linarith)
  refine ⟨fun s => ?_, fun s => ?_⟩
  · obtain ⟨x, rfl⟩ := hsurj s
    rw [hn, le_div_iff₀ (hd x), div_le_iff₀ (hd x), hfac]
    have h1 := mul_le_mul_of_nonneg_left (cos_le_one x) he0
    have h2 := mul_le_mul_of_nonneg_left (neg_one_le_cos x) he0
    constructor
    · exact mul_le_mul_of_nonneg_left (by linarith) hA.le
    · have := mul_le_mul_of_nonneg_left (show 1 - e' ≤ 1 + e' * cos x by linarith) hB.le
      linarith
  · obtain ⟨x, rfl⟩ := hsurj s
    have hpi := pi_pos
    -- a full turn beyond `x`
    obtain ⟨k, hk⟩ := exists_nat_gt (x / (2 * π))
    rw [div_lt_iff₀ (by positivity)] at hk
    refine ⟨⟨T (k * (2 * π)), hmono hk, ?_⟩, T (π + k * (2 * π)), hmono (by linarith), ?_⟩
    · rw [hn, cos_nat_mul_two_pi, hfac]
      have : (1:ℝ) + e' * 1 ≠ 0 := by linarith
      rw [div_eq_iff this]; ring
    · rw [hn, cos_add_nat_mul_two_pi, cos_pi, hfac]
      have : (1:ℝ) + e' * -1 ≠ 0 := by linarith
      rw [div_eq_iff this]; ring

/-- The elements computed after the burn are those of the state after it. -/
theorem defl_elements (name : String) (O : Orbiter) (hP : Planet.init name = .ok O.P) {th dV : ℝ} {R1 U1 U2 : V3}
    (h : Spec.Release O th dV R1 U1 U2) {self probe : Elements} (hself : O.orbit = some self)
    (hprobe : O.probeElements th dV = some probe) {t dV2 : ℝ} {R U U3 : V3} (hR : posProbe O.P.GM self probe t = some R)
    (hU : velProbe O.P.GM self probe t = some U) (hU3 : U3 = U + (dV2 / V3.norm U) • U)
    (hE : energy O.P.GM R U3 ≠ 0) (hc : V3.cross R U3 ≠ 0) (hecc : eccVec O.P.GM R U3 ≠ 0) :
    ∃ defl, O.deflElements self probe t dV2 = some defl ∧ defl.a = -O.P.GM / (2 * energy O.P.GM R U3) ∧
      defl.e = V3.norm (eccVec O.P.GM R U3) := by
  obtain ⟨_, hRP, hGM, _⟩ := C01_planet_consistent name O.P hP
  obtain ⟨el, probe', u, w, up, F⟩ := release_facts hP h
  obtain rfl : el = self := Option.some.inj (F.orbit.symm.trans hself)
  obtain rfl : probe' = probe := Option.some.inj (F.elements.symm.trans hprobe)
  obtain ⟨R', U', q1, q2, -, hUn, -, -, hcr⟩ := deflect_state F t _ _ _ rfl rfl rfl
  obtain rfl : R' = R := Option.some.inj (q1.symm.trans hR)
  obtain rfl : U' = U := Option.some.inj (q2.symm.trans hU)
  have hU0 : U' ≠ 0 := by
    rintro rfl
    rw [V3.norm_eq_zero.mpr rfl] at hUn
    have := F.S.ok.spd_pos t
    linarith
  have hU3k : U3 = (1 + dV2 / V3.norm U') • U' := by
    rw [hU3]; ext <;> simp only [V3.add_x, V3.add_y, V3.add_z, V3.smul_x, V3.smul_y, V3.smul_z] <;> ring
  have hne : (V3.cross R' U3).x ≠ 0 ∨ (V3.cross R' U3).y ≠ 0 := by
    rw [hU3k, V3.cross_smul_right, hcr, V3.smul_smul] at hc ⊢
    generalize (1 + dV2 / V3.norm U') * _ = z at hc ⊢
    have hz : z ≠ 0 := by
      rintro rfl
      apply hc
      ext <;> simp
    rcases F.tilted with h | h
    · left; exact mul_ne_zero hz h
    · right; exact mul_ne_zero hz h
  obtain ⟨defl, e1, e2, e3, -, -⟩ := burn_elements hGM hU0 hU3 hE hne hecc
  refine ⟨defl, ?_, e2, e3⟩
  unfold Orbiter.deflElements
  rw [hR, hU]
  exact e1

/-- C155: let `R`, `U` be the state the deflection starts from and `U3` the velocity after the burn.  If the burn leaves the
orbiter in a bound orbit that is neither radial nor circular, it has a free motion; every one keeps between the
reported periapsis and apoapsis radius and comes to both after any time, and comes below the skip altitude, after any time,
exactly if the warning is printed. -/
theorem C155_deflected_orbiter_flown (name : String) (O : Orbiter) (hP : Planet.init name = .ok O.P) (th dV : ℝ) (R1 U1 U2 : V3)
    (h : Spec.Release O th dV R1 U1 U2) (self probe : Elements) (hself : O.orbit = some self)
    (hprobe : O.probeElements th dV = some probe) (t dV2 : ℝ) (R U U3 : V3) (hR : posProbe O.P.GM self probe t = some R)
    (hU : velProbe O.P.GM self probe t = some U) (hU3 : U3 = U + (dV2 / V3.norm U) • U)
    (hE : energy O.P.GM R U3 < 0) (hc : V3.cross R U3 ≠ 0) (hecc : eccVec O.P.GM R U3 ≠ 0) :
    ∃ defl, O.deflElements self probe t dV2 = some defl ∧ (∃ M N, StartsAt O.P.GM R U3 M N) ∧ ∀ M N, StartsAt O.P.GM R U3 M N →
      (∀ s, (Orbiter.deflApses defl).1 ≤ V3.norm (M s) ∧ V3.norm (M s) ≤ (Orbiter.deflApses defl).2) ∧
      (∀ s, (∃ s', s < s' ∧ V3.norm (M s') = (Orbiter.deflApses defl).1) ∧ ∃ s', s < s' ∧ V3.norm (M s') = (Orbiter.deflApses defl).2) ∧
      ∀ s, O.deflWarns defl ↔ ∃ s', s < s' ∧ V3.norm (M s') < O.P.RP + O.P.hSkip := by
  obtain ⟨_, _, hGM, _⟩ := C01_planet_consistent name O.P hP
  obtain ⟨defl, e1, e2, e3⟩ := defl_elements name O hP h hself hprobe hR hU hU3 hE.ne hc hecc
  have hh : 0 < angMom R U3 := V3.norm_pos hc
  refine ⟨defl, e1, every_motion hGM hh, fun M N hs => ?_⟩
  · obtain ⟨b1, b2⟩ := bound_flight hGM hE hh e2 e3 hs
    refine ⟨b1, b2, fun s => ⟨fun hw => ?_, ?_⟩⟩
    · obtain ⟨⟨s', g1, g2⟩, -⟩ := b2 s
      refine ⟨s', g1, ?_⟩
      unfold Orbiter.deflWarns Orbiter.deflApses at hw
      rw [g2]
      linarith
    · rintro ⟨s', -, g⟩
      unfold Orbiter.deflWarns Orbiter.deflApses
      have := (b1 s').1
      linarith

/-- A motion with angular momentum and non-negative energy leaves beyond every distance; from some time on (at once, if it is not
descending at first) it climbs for ever. -/
theorem unbound_escapes {GM : ℝ} (hGM : 0 < GM) {R U : ℝ → V3} (h : Spec.TwoBodyMotion GM R U) (hx : V3.cross (R 0) (U 0) ≠ 0)
    (hE : 0 ≤ energy GM (R 0) (U 0)) : ∃ T, 0 ≤ T ∧ (0 ≤ V3.dot (R 0) (U 0) → T = 0) ∧
      StrictMonoOn (fun t => V3.norm (R t)) (Set.Ici T) ∧ Filter.Tendsto (fun t => V3.norm (R t)) Filter.atTop Filter.atTop := by
  have hpos := out_of_cross h hx
  have hen : ∀ t, energy GM (R t) (U t) = energy GM (R 0) (U 0) := energy_keeps h hpos
  obtain ⟨T, hT, hT0, hTd⟩ : ∃ T, 0 ≤ T ∧ (0 ≤ V3.dot (R 0) (U 0) → T = 0) ∧ 0 ≤ V3.dot (R T) (U T) := by
    by_cases hc : 0 ≤ V3.dot (R 0) (U 0)
    · exact ⟨0, le_rfl, fun _ => rfl, hc⟩
    by_contra hn
    have hneg : ∀ t, 0 ≤ t → V3.dot (R t) (U t) < 0 := fun t ht => by
      by_contra hcon
      exact hn ⟨t, ht, fun h0 => absurd h0 hc, not_lt.mp hcon⟩
    have h0 := hpos 0
    -- while it descends it stays within its first distance
    have hin : ∀ t, 0 ≤ t → V3.norm (R t) ≤ V3.norm (R 0) := by
      intro t ht
      have hm : AntitoneOn (fun s => V3.norm (R s)) (Set.Icc 0 t) := by
        refine antitoneOn_of_deriv_nonpos (convex_Icc 0 t) (distance_continuous h).continuousOn
          (fun x hx => (twoBody_rates h (hpos x)).1.differentiableAt.differentiableWithinAt) fun x hx => ?_
        rw [interior_Icc] at hx
        rw [(twoBody_rates h (hpos x)).1.deriv]
        exact div_nonpos_of_nonpos_of_nonneg (hneg x hx.1.le).le (hpos x).le
      exact hm ⟨le_rfl, ht⟩ ⟨ht, le_rfl⟩ ht
    set k := GM / V3.norm (R 0) with hk
    have hk0 : 0 < k := by positivity
    have g1 : ∀ t, 0 ≤ t → V3.dot (R 0) (U 0) + k * t ≤ V3.dot (R t) (U t) := by
      intro t ht
      have hm : MonotoneOn (fun s => V3.dot (R s) (U s) - k * s) (Set.Icc 0 t) := by
        refine monotoneOn_of_deriv_nonneg (convex_Icc 0 t) (((climb_continuous h).sub (by fun_prop)).continuousOn)
          (fun x hx => ?_) fun x hx => ?_
        all_goals
          rw [interior_Icc] at hx
          have d := (climb_rate h (hpos x)).sub ((hasDerivAt_id x).const_mul k)
        · exact d.differentiableAt.differentiableWithinAt
        · have := d.deriv
          change deriv (fun s => V3.dot (R s) (U s) - k * s) x = _ at this
          rw [this, hen x]
          have : k ≤ GM / V3.norm (R x) := div_le_div_of_nonneg_left hGM.le (hpos x) (hin x hx.1.le)
          linarith
      have := hm ⟨le_rfl, ht⟩ ⟨ht, le_rfl⟩ ht
      simp only at this
      linarith
    have ht1 : 0 ≤ -V3.dot (R 0) (U 0) / k := div_nonneg (by linarith [not_le.mp hc]) hk0.le
    have h1 := g1 _ ht1
    have h2 := hneg _ ht1
    have h3 : k * (-V3.dot (R 0) (U 0) / k) = -V3.dot (R 0) (U 0) := by field_simp
    rw [h3] at h1
    linarith
  obtain ⟨m, l⟩ := unbound_leaves hGM (motion_shift h T) (by rw [zero_add]; exact hpos T)
    (by rw [zero_add, hen]; exact hE) (by rw [zero_add]; exact hTd)
  refine ⟨T, hT, hT0, fun x hx y hy hxy => ?_, ?_⟩
  · have hx' : T ≤ x := hx
    have hy' : T ≤ y := hy
    have := m (show x - T ∈ Set.Ici 0 from sub_nonneg.mpr hx') (show y - T ∈ Set.Ici 0 from sub_nonneg.mpr hy')
      (by linarith)
    simpa using this
  · have := l.comp (Filter.tendsto_atTop_add_const_right Filter.atTop (-T) Filter.tendsto_id)
    refine this.congr fun t => ?_
    simp
/-- C146: a vehicle whose exit state is not radial and has non-negative orbital energy leaves beyond every distance, climbing or
descending at its exit; if it descends, it first passes the planet and then climbs for ever. -/
theorem C146_unbound_nonradial_leaves (name : String) (P : Planet) (hP : Planet.init name = .ok P) (s : Terminal)
    (hE : 0 ≤ exitEnergy P s) (hh : 0 < exitAngMom P s) (R U : ℝ → V3) (h : CoastsFrom P s R U) :
    ∃ T, 0 ≤ T ∧ (0 ≤ V3.dot (R 0) (U 0) → T = 0) ∧ StrictMonoOn (fun t => V3.norm (R t)) (Set.Ici T) ∧
      Filter.Tendsto (fun t => V3.norm (R t)) Filter.atTop Filter.atTop := by
  obtain ⟨_, _, hGM, _⟩ := C01_planet_consistent name P hP
  refine unbound_escapes hGM h.1 ?_ (by rw [h.2.1, h.2.2]; exact hE)
  rw [h.2.1, h.2.2]
  intro h0
  unfold exitAngMom angMom at hh
  rw [h0, V3.norm_eq_zero.mpr rfl] at hh
  exact lt_irrefl _ hh

/-- Case for `C146_unbound_nonradial_leaves`: a vehicle at Mars descending at 30 degrees with 8 km/s. -/
theorem C146_unbound_nonradial_case : ∃ (P : Planet) (s : Terminal), Planet.init "MARS" = .ok P ∧ s.v * sin s.g < 0 ∧
    0 ≤ exitEnergy P s ∧ 0 < exitAngMom P s ∧ ∃ R U, CoastsFrom P s R U := by
  obtain ⟨P, hP⟩ := (C01_planet_names "MARS").1.mpr (by simp [Spec.bodies])
  obtain ⟨_, hRP, hGM, _⟩ := C01_planet_consistent "MARS" P hP
  have hGMv : P.GM = 42828370000000 := by
    have : P.GM = 4.282837e13 := by simp [Planet.init] at hP; subst hP; rfl
    rw [this]; norm_num
  have hR' : pos 3509500 0 0 = ⟨3509500, 0, 0⟩ := by ext <;> simp [Spec.pos, Spec.up]
  have hU' : vel 0 0 8000 (π / 2) (-(π / 6)) + V3.cross (spin P.OMEGA) ⟨3509500, 0, 0⟩ =
      ⟨-4000, P.OMEGA * 3509500, 4000 * √3⟩ := by
    ext
    · simp [vel, along, up, horiz, east, north, spin, V3.cross]; norm_num
    · simp [vel, along, up, horiz, east, north, spin, V3.cross]
    · simp [vel, along, up, horiz, east, north, spin, V3.cross]; ring
  have h3 : √3 ^ 2 = 3 := sq_sqrt (by norm_num)
  have h30 : 0 < √3 := by positivity
  have hn : V3.norm (⟨3509500, 0, 0⟩ : V3) = 3509500 := V3.norm_eq_of_sq (by norm_num) (by simp only [V3.dot]; norm_num)
  have hx : V3.cross ⟨3509500, 0, 0⟩ ⟨-4000, P.OMEGA * 3509500, 4000 * √3⟩ ≠ 0 := by
    intro h
    have := congrArg V3.y h
    simp [V3.cross] at this
  have hh : 0 < exitAngMom P ⟨3509500, 8000, -(π / 6), 0, 0, π / 2⟩ := by
    unfold exitAngMom angMom
    simp only
    rw [hR', hU']
    exact V3.norm_pos hx
  refine ⟨P, ⟨3509500, 8000, -(π / 6), 0, 0, π / 2⟩, hP, by simp, ?_, hh, every_motion hGM hh⟩
  unfold exitEnergy
  simp only
  rw [hR', hU', energy, V3.norm_sq, hn, hGMv]
  have : V3.dot ⟨-4000, P.OMEGA * 3509500, 4000 * √3⟩ ⟨-4000, P.OMEGA * 3509500, 4000 * √3⟩ =
      16000000 + (P.OMEGA * 3509500) ^ 2 + 16000000 * √3 ^ 2 := by simp only [V3.dot]; ring
  rw [this, h3]
  have := sq_nonneg (P.OMEGA * 3509500)
  norm_num
  linarith

/-- C155, beyond its hypotheses: if the burn makes the orbiter escape, the reported apoapsis radius is negative, and the orbiter
leaves beyond every distance; from some time on, at once if it is not descending, it climbs for ever. -/
theorem C155_escape_negative_apoapsis (name : String) (O : Orbiter) (hP : Planet.init name = .ok O.P) (th dV : ℝ) (R1 U1 U2 : V3)
    (h : Spec.Release O th dV R1 U1 U2) (self probe : Elements) (hself : O.orbit = some self)
    (hprobe : O.probeElements th dV = some probe) (t dV2 : ℝ) (R U U3 : V3) (hR : posProbe O.P.GM self probe t = some R)
    (hU : velProbe O.P.GM self probe t = some U) (hU3 : U3 = U + (dV2 / V3.norm U) • U)
    (hE : 0 < energy O.P.GM R U3) (hc : V3.cross R U3 ≠ 0) (hecc : eccVec O.P.GM R U3 ≠ 0) :
    ∃ defl, O.deflElements self probe t dV2 = some defl ∧ (Orbiter.deflApses defl).2 < 0 ∧
      (∃ M N, StartsAt O.P.GM R U3 M N) ∧ ∀ M N, StartsAt O.P.GM R U3 M N → ∃ T, 0 ≤ T ∧ (0 ≤ V3.dot R U3 → T = 0) ∧
        StrictMonoOn (fun s => V3.norm (M s)) (Set.Ici T) ∧ Filter.Tendsto (fun s => V3.norm (M s)) Filter.atTop Filter.atTop := by
  obtain ⟨_, _, hGM, _⟩ := C01_planet_consistent name O.P hP
  obtain ⟨defl, e1, e2, e3⟩ := defl_elements name O hP h hself hprobe hR hU hU3 hE.ne' hc hecc
  refine ⟨defl, e1, ?_, every_motion hGM (V3.norm_pos hc), fun M N hs => ?_⟩
  · have ha : defl.a < 0 := by rw [e2]; exact div_neg_of_neg_of_pos (by linarith) (by linarith)
    have he : 0 ≤ defl.e := by rw [e3]; exact V3.norm_nonneg _
    exact mul_neg_of_neg_of_pos ha (by linarith)
  · have := unbound_escapes hGM hs.1 (by rw [hs.2.1, hs.2.2]; exact hc) (by rw [hs.2.1, hs.2.2]; exact hE.le)
    rwa [hs.2.1, hs.2.2] at this

/-- The state at the apoapsis of the probe orbit after a release a quarter orbit after periapsis that halves the speed. -/
theorem quarter_state (name : String) (O : Orbiter) (hP : Planet.init name = .ok O.P) (R1 U1 U2 : V3)
    (h : Spec.Release O (π / 2) (-(V3.norm U1 / 2)) R1 U1 U2) : ∃ self probe R U, O.orbit = some self ∧
      O.probeElements (π / 2) (-(V3.norm U1 / 2)) = some probe ∧ posProbe O.P.GM self probe π = some R ∧
      velProbe O.P.GM self probe π = some U ∧ 0 < V3.norm R ∧ 0 < V3.norm U ∧ 0 < V3.dot R U ∧ V3.cross R U ≠ 0 ∧
      0 < probe.e ∧ probe.e < 1 ∧ V3.norm U ^ 2 = O.P.GM / V3.norm R * (1 - probe.e) := by
  obtain ⟨_, hRP, hGM, _⟩ := C01_planet_consistent name O.P hP
  obtain ⟨el, probe, u, w, up, F⟩ := release_facts hP h
  have hk := kap_gt
  have hkl : kap < 1.0000002 := by unfold kap; norm_num
  have Kp := F.S.ok
  obtain ⟨D, hD⟩ : ∃ D, D = probe.o.omega - el.o.omega := ⟨_, rfl⟩
  obtain ⟨c1, c2⟩ := cross_unit F.K.uu F.K.ww F.K.uw
  have he0 := F.S.epos
  have he1 := Kp.e1
  have hh0 := Kp.hpos
  have ha0 := Kp.apos
  have hU1p : 0 < V3.norm U1 := by have := h.forward; linarith
  obtain ⟨hsin, hcos, hcos1⟩ := quarter_turn hGM F hU1p hD
  -- the state at apoapsis of the probe orbit
  obtain ⟨r, hr⟩ : ∃ r, r = EllipseOK.rad O.P.GM probe π := ⟨_, rfl⟩
  obtain ⟨v, hv⟩ : ∃ v, v = EllipseOK.spd O.P.GM probe π := ⟨_, rfl⟩
  have hr0 : 0 < r := by rw [hr]; exact Kp.rad_pos _
  have hv0 : 0 < v := by rw [hv]; exact Kp.spd_pos _
  have hra : r = probe.a * (1 + probe.e) := by
    rw [hr]; unfold EllipseOK.rad
    rw [cos_pi, Kp.hsq]
    have : 1 + probe.e * -1 ≠ 0 := by linarith
    rw [div_eq_iff this]
    field_simp
    ring
  have hvsq : v ^ 2 = O.P.GM * (2 / r - 1 / probe.a) := by
    rw [hv, hr]
    unfold EllipseOK.spd; rw [sq_sqrt (by rw [Kp.spd_sq]; have := Kp.rad_pos π; positivity)]
  have hrv : r * v = probe.h := by
    have h1 : (r * v) ^ 2 = probe.h ^ 2 := by
      rw [mul_pow, hvsq, Kp.hsq, hra]
      have : 1 + probe.e ≠ 0 := by linarith
      field_simp
      ring
    exact (pow_left_inj₀ (by positivity) hh0.le two_ne_zero).mp h1
  obtain ⟨R, U, hR, hU, hRn, hUn, hRe, hdot, hcr⟩ := deflect_state F π r v D hr hv hD
  rw [hrv, div_self hh0.ne'] at hdot hcr
  set σ := sqrt (1 - (1 / kap) ^ 2) with hσ
  have hσ0 : 0 ≤ σ := sqrt_nonneg _
  have hik : 0 < 1 / kap := by positivity
  have hik1 : 1 / kap < 1 := by rw [div_lt_one (by linarith)]; exact hk
  have hik2 : 9999998 / 10000000 < 1 / kap := by
    rw [div_lt_div_iff₀ (by norm_num) (by linarith)]; norm_num at hkl ⊢; linarith
  have hσ1 : σ < 1 / 1000 := by
    rw [hσ, sqrt_lt' (by norm_num)]; nlinarith
  have hhr : probe.h / r / kap = v * (1 / kap) := by rw [← hrv]; field_simp
  rw [hhr] at hdot hcr
  set c := r * (-(v * σ) * sin D + v * (1 / kap) * cos D) with hcd
  have hce : c = probe.h * (σ * -sin D + 1 / kap * cos D) := by rw [hcd, ← hrv]; ring
  have hs1 : -1 ≤ sin D := neg_one_le_sin D
  have hc0 : 0 < c := by
    rw [hce]
    have h1 : 0 ≤ σ * -sin D := mul_nonneg hσ0 (by linarith)
    have h2 : 0 < 1 / kap * cos D := mul_pos hik hcos
    positivity
  have hc1 : c < 7 / 10 * probe.h := by
    rw [hce, mul_comm (7 / 10) _]
    apply mul_lt_mul_of_pos_left _ hh0
    have h1 : σ * -sin D ≤ σ * 1 := mul_le_mul_of_nonneg_left (by linarith) hσ0
    have h2 : 1 / kap * cos D < 1 * cos D := mul_lt_mul_of_pos_right hik1 hcos
    linarith
  have hdot0 : 0 < V3.dot R U := by
    rw [hdot, show r * (-(v * σ) * cos D - v * (1 / kap) * sin D) = r * v * (1 / kap * -sin D - σ * cos D) by ring, hrv]
    apply mul_pos hh0
    have h1 : σ * cos D ≤ 1 / 1000 * 1 := mul_le_mul hσ1.le (cos_le_one D) hcos.le (by norm_num)
    have h2 : 9999998 / 10000000 * (3 / 4) < 1 / kap * -sin D := by
      apply mul_lt_mul' hik2.le (by linarith) (by norm_num) hik
    linarith
  have hne : (V3.cross R U).x ≠ 0 ∨ (V3.cross R U).y ≠ 0 := by
    rw [hcr]
    rcases F.tilted with h | h
    · left; exact mul_ne_zero hc0.ne' h
    · right; exact mul_ne_zero hc0.ne' h
  have hcr0 : V3.cross R U ≠ 0 := by rintro h0; rw [h0] at hne; simp at hne
  refine ⟨el, probe, R, U, F.orbit, F.elements, hR, hU, by rw [hRn]; exact hr0, by rw [hUn]; exact hv0, hdot0, hcr0, he0, he1, ?_⟩
  rw [hUn, hRn, hvsq, hra]
  have : 1 + probe.e ≠ 0 := by linarith
  field_simp
  ring

/-- A burn of `k - 1` times the speed, and what it leaves of a state that is climbing and not radial. -/
theorem scaled_burn {GM : ℝ} (hGM : 0 < GM) {R U : V3} (hv : 0 < V3.norm U) (hd : 0 < V3.dot R U) (hc : V3.cross R U ≠ 0)
    {k : ℝ} (hk : 0 < k) : U + ((k - 1) * V3.norm U / V3.norm U) • U = k • U ∧ V3.cross R (k • U) ≠ 0 ∧
      0 < V3.dot R (k • U) ∧ eccVec GM R (k • U) ≠ 0 ∧ energy GM R (k • U) = k ^ 2 * V3.norm U ^ 2 / 2 - GM / V3.norm R := by
  have hc3 : V3.cross R (k • U) ≠ 0 := by
    rw [V3.cross_smul_right]
    intro h0
    apply hc
    have e1 := congrArg V3.x h0
    have e2 := congrArg V3.y h0
    have e3 := congrArg V3.z h0
    simp only [V3.smul_x, V3.smul_y, V3.smul_z, V3.zero_x, V3.zero_y, V3.zero_z, mul_eq_zero, hk.ne', false_or] at e1 e2 e3
    ext <;> simpa
  have hd3 : 0 < V3.dot R (k • U) := by rw [V3.dot_smul_right]; positivity
  refine ⟨?_, hc3, hd3, ecc_ne_zero hGM hc3 hd3.ne', ?_⟩
  · rw [mul_div_assoc, div_self hv.ne', mul_one]
    ext <;> simp only [V3.add_x, V3.add_y, V3.add_z, V3.smul_x, V3.smul_y, V3.smul_z] <;> ring
  · rw [energy, V3.norm_smul, abs_of_pos hk, mul_pow]

/-- Case for `C155_deflected_orbiter_flown`: the orbit of `mars_release`, faster by a quarter at the apoapsis. -/
theorem C155_case : ∃ (O : Orbiter) (R1 U1 U2 : V3) (self probe : Elements) (R U U3 : V3), Planet.init "MARS" = .ok O.P ∧
    Spec.Release O (π / 2) (-(V3.norm U1 / 2)) R1 U1 U2 ∧ O.orbit = some self ∧
    O.probeElements (π / 2) (-(V3.norm U1 / 2)) = some probe ∧ posProbe O.P.GM self probe π = some R ∧
    velProbe O.P.GM self probe π = some U ∧ 0 < V3.norm U ∧ U3 = U + ((5 / 4 - 1) * V3.norm U / V3.norm U) • U ∧
    energy O.P.GM R U3 < 0 ∧ V3.cross R U3 ≠ 0 ∧ eccVec O.P.GM R U3 ≠ 0 := by
  obtain ⟨O, R1, U1, U2, hP, h, -⟩ := mars_release (π / 2)
  obtain ⟨_, _, hGM, _⟩ := C01_planet_consistent _ O.P hP
  obtain ⟨self, probe, R, U, a1, a2, a3, a4, hr, hv, hd, hc, he0, he1, hsq⟩ := quarter_state "MARS" O hP R1 U1 U2 h
  obtain ⟨b1, b2, -, b4, b5⟩ := scaled_burn hGM hv hd hc (k := 5 / 4) (by norm_num)
  refine ⟨O, R1, U1, U2, self, probe, R, U, _, hP, h, a1, a2, a3, a4, hv, rfl, ?_, by rw [b1]; exact b2, by rw [b1]; exact b4⟩
  rw [b1, b5, hsq]
  have h2 : 0 < O.P.GM / V3.norm R := by positivity
  have h3 : O.P.GM / V3.norm R * (1 - probe.e) < O.P.GM / V3.norm R * 1 := mul_lt_mul_of_pos_left (by linarith) h2
  linarith

/-- Case for `C155_escape_negative_apoapsis`: the same state, with a burn large enough to escape. -/
theorem C155_escape_case : ∃ (O : Orbiter) (R1 U1 U2 : V3) (self probe : Elements) (dV2 : ℝ) (R U U3 : V3),
    Planet.init "MARS" = .ok O.P ∧
    Spec.Release O (π / 2) (-(V3.norm U1 / 2)) R1 U1 U2 ∧ O.orbit = some self ∧
    O.probeElements (π / 2) (-(V3.norm U1 / 2)) = some probe ∧ posProbe O.P.GM self probe π = some R ∧
    velProbe O.P.GM self probe π = some U ∧ U3 = U + (dV2 / V3.norm U) • U ∧ 0 < energy O.P.GM R U3 ∧
    V3.cross R U3 ≠ 0 ∧ eccVec O.P.GM R U3 ≠ 0 ∧ 0 ≤ V3.dot R U3 := by
  obtain ⟨O, R1, U1, U2, hP, h, -⟩ := mars_release (π / 2)
  obtain ⟨_, _, hGM, _⟩ := C01_planet_consistent _ O.P hP
  obtain ⟨self, probe, R, U, a1, a2, a3, a4, hr, hv, hd, hc, he0, he1, hsq⟩ := quarter_state "MARS" O hP R1 U1 U2 h
  have he : 0 < 1 - probe.e := by linarith
  have hk : 2 < 2 / (1 - probe.e) := by rw [lt_div_iff₀ he]; linarith
  obtain ⟨b1, b2, b3, b4, b5⟩ := scaled_burn hGM hv hd hc (k := 2 / (1 - probe.e)) (by linarith)
  refine ⟨O, R1, U1, U2, self, probe, _, R, U, _, hP, h, a1, a2, a3, a4, rfl, ?_, by rw [b1]; exact b2, by rw [b1]; exact b4,
    by rw [b1]; exact b3.le⟩
  rw [b1, b5, hsq]
  have h2 : 0 < O.P.GM / V3.norm R := by positivity
  have h3 : (2 / (1 - probe.e)) ^ 2 * (O.P.GM / V3.norm R * (1 - probe.e)) / 2 = O.P.GM / V3.norm R * (2 / (1 - probe.e)) := by
    field_simp
  have h4 : O.P.GM / V3.norm R * 2 < O.P.GM / V3.norm R * (2 / (1 - probe.e)) := mul_lt_mul_of_pos_left hk h2
  rw [h3]
  linarith

end AMAT.Props
