import Verif.Props.OrbiterProps

/-
Properties C70 and C71: the atmospheric entry of a probe released from an orbiter.
-/

noncomputable section

open Classical

namespace AMAT.Props

open Real

/-! ### C70 -/

/-- C70: when the released probe's periapsis is below and its apoapsis not below the entry interface, the recorded entry
anomaly is on the inbound half of its orbit, the entry position is exactly at the interface radius, and the recorded
value does not depend on earlier calls. -/
theorem C70_entry_interface_partial (name : String) (O : Orbiter) (hP : Planet.init name = .ok O.P) (hr : 0 < O.s.r) (R U : V3)
    (hR : R = Spec.pos O.s.r O.s.theta O.s.phi)
    (hUd : U = Spec.vel O.s.theta O.s.phi O.s.v O.s.psi O.s.g + V3.cross (Spec.spin O.P.OMEGA) R)
    (hE : Spec.energy O.P.GM R U < 0) (hne : (V3.cross R U).x ≠ 0 ∨ (V3.cross R U).y ≠ 0)
    (hecc : Spec.eccVec O.P.GM R U ≠ 0) (hq : 0 < O.P.RP + O.periAltKm * 1000)
    (th dV : ℝ) (R1 U1 U2 : V3) (hR1 : O.pos th = some R1) (hU1 : O.vel th = some U1) (hdV : -V3.norm U1 < dV)
    (hU2 : U2 = U1 + (dV / V3.norm U1) • U1) (hE2 : Spec.energy O.P.GM R1 U2 < 0) :
    ∃ self probe, O.orbit = some self ∧ O.probeElements th dV = some probe ∧
      (probe.a * (1 - probe.e) < O.P.RP + O.P.hSkip → O.P.RP + O.P.hSkip ≤ probe.a * (1 + probe.e) →
        ∃ t Rp, π ≤ t ∧ t ≤ 2 * π ∧ O.probeEntryAnomaly probe = some t ∧ posProbe O.P.GM self probe t = some Rp ∧
          V3.norm Rp = O.P.RP + O.P.hSkip ∧
          ∀ prev n, ∃ arr, O.probeTrajectory self probe prev th n = .ok (some (some t), some arr)) := by
  obtain ⟨_, hRP, hGM, _, _, hT, hTS, _⟩ := C01_planet_consistent name O.P hP
  obtain ⟨coast, u, w, hc, S, hRn⟩ := coast_core hGM hr hR hUd hE hne hecc
  obtain ⟨-, el, hO, K, ho, -, -⟩ := prm_core S.ok hRP hc hq
  obtain ⟨probe, up, wp, hpr, Sp, hwp, hd, hph, hn, -, hpos⟩ := probe_core S K ho hO hne hR1 hU1 hdV hU2 hE2
  refine ⟨el, probe, hO, hpr, fun hlo hhi => ?_⟩
  have he := Sp.epos
  have he1 := Sp.ok.e1
  have ha := Sp.ok.apos
  set r := O.P.RP + O.P.hSkip with hrd
  have hr0 : 0 < r := lt_trans (mul_pos ha (by linarith)) hlo
  have hp : probe.h ^ 2 / (O.P.GM * r) = probe.a * (1 - probe.e) * (1 + probe.e) / r := by
    rw [Sp.ok.hsq]; field_simp; ring
  set x := (probe.h ^ 2 / (O.P.GM * r) - 1) * (1 / probe.e) with hx
  have hx1 : x ≤ 1 := by
    rw [hx, mul_one_div, div_le_one he, hp, sub_le_iff_le_add, div_le_iff₀ hr0]
    nlinarith
  have hx0 : -1 ≤ x := by
    rw [hx, mul_one_div, le_div_iff₀ he, hp, le_sub_iff_add_le, le_div_iff₀ hr0]
    nlinarith
  have hth : O.probeEntryAnomaly probe = some (2 * π - arccos x) := by
    unfold Orbiter.probeEntryAnomaly
    simp only [bind, Option.bind, pure]
    rw [← hrd, npDiv_some (by positivity), npDiv_some he.ne', Lits.l10]
    simp only []
    rw [npArccos_some ⟨hx0, hx1⟩]
  have hcos : cos (2 * π - arccos x) = x := by rw [cos_two_pi_sub, cos_arccos hx0 hx1]
  have hrad : EllipseOK.rad O.P.GM probe (2 * π - arccos x) = r := by
    have hden := Sp.ok.den (2 * π - arccos x)
    unfold EllipseOK.rad
    rw [hcos] at hden ⊢
    rw [div_eq_iff hden.ne', hx]
    field_simp
    ring
  refine ⟨_, _, by linarith [arccos_le_pi x], by linarith [arccos_nonneg x], hth, hpos _, ?_, fun prev n => ?_⟩
  · rw [hrad, V3.norm_smul, abs_of_pos hr0]
    have h1 := EllipseOK.norm_polar K.uu K.ww K.uw 1 0 (2 * π - arccos x)
    have : (1:ℝ) • (cos (2 * π - arccos x) • u + sin (2 * π - arccos x) • V3.cross w u) +
        (0:ℝ) • ((-sin (2 * π - arccos x)) • u + cos (2 * π - arccos x) • V3.cross w u) =
        cos (2 * π - arccos x) • u + sin (2 * π - arccos x) • V3.cross w u := by ext <;> simp
    rw [this] at h1
    rw [h1]; norm_num
  · unfold Orbiter.probeTrajectory
    dsimp only
    rw [if_pos (by linarith), hth]
    exact ⟨_, rfl⟩

/-- Finding behind C70: when the periapsis of the probe orbit is not below the interface, a first call fails with
`AttributeError`, and a call after an earlier successful one silently samples the new orbit up to the entry anomaly of
the earlier probe. -/
theorem C70_no_entry (O : Orbiter) (self probe : Elements) (th : ℝ) (n : ℕ)
    (h : O.P.RP + O.P.hSkip ≤ probe.a * (1 - probe.e)) :
    O.probeTrajectory self probe none th n = .error .attributeError ∧
    ∀ old, O.probeTrajectory self probe (some (some old)) th n =
      .ok (some (some old), some (orbitArr O.P (posProbe O.P.GM self probe) th old n)) := by
  unfold Orbiter.probeTrajectory
  dsimp only
  refine ⟨by rw [if_neg (by linarith)]; rfl, fun old => by rw [if_neg (by linarith)]; rfl⟩

/-- Case for `C70_no_entry`: at Mars, a probe orbit with periapsis 4050 km from the centre, 660 km above the surface. -/
example : ∃ (O : Orbiter) (probe : Elements), Planet.init "MARS" = .ok O.P ∧ probe.a * (1 - probe.e) = 4050000 ∧
    ∀ self, O.probeTrajectory self probe none 1 201 = .error .attributeError := by
  obtain ⟨P, hP, hR, -, hS, -⟩ := demo_mars
  refine ⟨⟨P, ⟨3509500, 4000, 0, 0, 0, π / 2⟩, 660⟩, ⟨4500000, 0.1, 1e10, ⟨0.1, 0, 0⟩⟩, hP, by norm_num, fun self => ?_⟩
  exact (C70_no_entry _ self _ 1 201 (by simp only [hR, hS]; norm_num)).1

/-! ### C71 -/

/-- C71 is false: the attribute `gamma_atm_probe_entry` of every computed probe entry is the flight-path angle of the
inertial velocity `U`; it is the angle of the atmosphere-relative velocity only if the entry is horizontal or the two
speeds coincide. -/
theorem C71_atm_angle_is_inertial (O : Orbiter) (self probe : Elements) (pe : Orbiter.ProbeEntry)
    (h : O.probeEntry self probe = some pe) :
    V3.dot pe.R pe.U = V3.norm pe.R * V3.norm pe.U * sin pe.gammaAtm ∧
    V3.dot pe.R pe.Uatm = V3.dot pe.R pe.U ∧
    (V3.dot pe.R pe.Uatm = V3.norm pe.R * V3.norm pe.Uatm * sin pe.gammaAtm ↔
      V3.norm pe.Uatm = V3.norm pe.U ∨ V3.dot pe.R pe.U = 0) := by
  unfold Orbiter.probeEntry at h
  simp only [bind, Option.bind, pure] at h
  cases h1 : O.probeEntryAnomaly probe with
  | none => rw [h1] at h; cases h
  | some t =>
  rw [h1] at h; simp only [] at h
  cases h2 : posProbe O.P.GM self probe t with
  | none => rw [h2] at h; cases h
  | some R =>
  rw [h2] at h; simp only [] at h
  by_cases hR : R = 0
  · rw [hR, npUnit_zero] at h; cases h
  rw [npUnit_some hR] at h; simp only [] at h
  cases h3 : velProbe O.P.GM self probe t with
  | none => rw [h3] at h; cases h
  | some U =>
  rw [h3] at h; simp only [] at h
  by_cases hU : U = 0
  · rw [hU, npUnit_zero] at h; cases h
  rw [npUnit_some hU] at h; simp only [] at h
  cases h4 : npDiv probe.h ((O.P.RP + O.P.hSkip) * V3.norm U) with
  | none => rw [h4] at h; cases h
  | some x =>
  rw [h4] at h; simp only [] at h
  cases h5 : npArccos x with
  | none => rw [h5] at h; cases h
  | some g =>
  rw [h5] at h; simp only [] at h
  have hRp := V3.norm_pos hR
  have hUp := V3.norm_pos hU
  by_cases hx : R.x = 0
  · have : ((1 / V3.norm R) • R).x = 0 := by simp [hx]
    rw [this] at h; unfold npDiv at h; rw [if_pos rfl] at h; cases h
  have hx' : ((1 / V3.norm R) • R).x ≠ 0 := mul_ne_zero (by positivity) hx
  rw [npDiv_some hx'] at h; simp only [] at h
  have hq : ((1 / V3.norm R) • R).y / ((1 / V3.norm R) • R).x = R.y / R.x := by
    simp only [V3.smul_x, V3.smul_y]; field_simp
  rw [hq] at h
  set lat := arcsin ((1 / V3.norm R) • R).z
  set lon := arctan (R.y / R.x) with hlon
  set Ua : V3 := ⟨U.x - V3.norm R * O.P.OMEGA * cos lat * (-sin lon), U.y - V3.norm R * O.P.OMEGA * cos lat * cos lon, U.z⟩ with hUa
  by_cases hUa0 : Ua = 0
  · rw [hUa0, npUnit_zero] at h; cases h
  rw [npUnit_some hUa0] at h; simp only [] at h
  have hcs := V3.abs_dot_le R U
  have hdot : V3.dot ((1 / V3.norm R) • R) ((1 / V3.norm U) • U) = V3.dot R U / (V3.norm R * V3.norm U) := by
    rw [V3.dot_smul_left, V3.dot_smul_right]; field_simp
  have hb : -1 ≤ V3.dot R U / (V3.norm R * V3.norm U) ∧ V3.dot R U / (V3.norm R * V3.norm U) ≤ 1 := by
    have := abs_le.mp hcs
    constructor
    · rw [le_div_iff₀ (by positivity)]; linarith
    · rw [div_le_iff₀ (by positivity)]; linarith
  rw [hdot, npArccos_some hb] at h; simp only [] at h
  split at h
  · cases h
  · have hpe := Option.some.inj h
    have e1 : pe.R = R := by rw [← hpe]
    have e2 : pe.U = U := by rw [← hpe]
    have e3 : pe.Uatm = Ua := by rw [← hpe]
    have e4 : pe.gammaAtm = π / 2 - arccos (V3.dot R U / (V3.norm R * V3.norm U)) := by rw [← hpe]
    rw [e1, e2, e3, e4, sin_pi_div_two_sub, cos_arccos hb.1 hb.2]
    have hperp : V3.dot R Ua = V3.dot R U := by
      have hs : R.y * cos lon = R.x * sin lon := by
        have hc : cos lon ≠ 0 := (cos_arctan_pos _).ne'
        have ht : tan lon = R.y / R.x := tan_arctan _
        rw [tan_eq_sin_div_cos, div_eq_div_iff hc hx] at ht
        linarith
      simp only [V3.dot, hUa]
      linear_combination (-(V3.norm R * O.P.OMEGA * cos lat)) * hs
    refine ⟨by field_simp, hperp, ?_⟩
    rw [hperp]
    have e5 : V3.norm R * V3.norm Ua * (V3.dot R U / (V3.norm R * V3.norm U)) = V3.dot R U * (V3.norm Ua / V3.norm U) := by
      field_simp
    rw [e5]
    constructor
    · intro h0
      by_cases hz : V3.dot R U = 0
      · right; exact hz
      · left
        have : V3.norm Ua / V3.norm U = 1 := by
          have : V3.dot R U * (V3.norm Ua / V3.norm U) = V3.dot R U * 1 := by linarith
          exact mul_left_cancel₀ hz this
        rwa [div_eq_one_iff_eq hUp.ne'] at this
    · rintro (h0 | h0)
      · rw [h0, div_self hUp.ne', mul_one]
      · rw [h0, zero_mul]

/-- The entry record exists when the entry point is off the plane `x = 0` and the probe is faster than the surface. -/
theorem probeEntry_some {O : Orbiter} {self probe : Elements} {t g : ℝ} {R U : V3} (ht : O.probeEntryAnomaly probe = some t)
    (hR : posProbe O.P.GM self probe t = some R) (hx : R.x ≠ 0) (hU : velProbe O.P.GM self probe t = some U)
    (hr : 0 < O.P.RP + O.P.hSkip) (hg : npArccos (probe.h / ((O.P.RP + O.P.hSkip) * V3.norm U)) = some g)
    (hsp : (V3.norm R * O.P.OMEGA) ^ 2 < V3.norm U ^ 2) :
    ∃ pe, O.probeEntry self probe = some pe ∧ pe.R = R ∧ pe.U = U ∧ pe.gammaInertial = -1 * g := by
  have hR0 : R ≠ 0 := by
    intro h0; rw [h0] at hx; exact hx rfl
  have hU0 : U ≠ 0 := by
    intro h0
    rw [h0, V3.norm_eq_zero.mpr rfl] at hsp
    have := sq_nonneg (V3.norm R * O.P.OMEGA)
    norm_num at hsp
    linarith
  have hRp := V3.norm_pos hR0
  have hUp := V3.norm_pos hU0
  set ru := (1 / V3.norm R) • R with hru
  have hx' : ru.x ≠ 0 := mul_ne_zero (by positivity) hx
  set lat := arcsin ru.z with hlat
  set lon := arctan (ru.y / ru.x) with hlon
  set Ua : V3 := ⟨U.x - V3.norm R * O.P.OMEGA * cos lat * (-sin lon), U.y - V3.norm R * O.P.OMEGA * cos lat * cos lon, U.z⟩ with hUa
  have hUa0 : Ua ≠ 0 := by
    intro h0
    have hx0 := congrArg V3.x h0
    have hy0 := congrArg V3.y h0
    have hz0 := congrArg V3.z h0
    simp only [hUa, V3.zero_x, V3.zero_y, V3.zero_z] at hx0 hy0 hz0
    have hs : V3.norm U ^ 2 = (V3.norm R * O.P.OMEGA) ^ 2 * cos lat ^ 2 := by
      rw [V3.norm_sq]
      simp only [V3.dot]
      have sc := sin_sq_add_cos_sq lon
      rw [show U.x = V3.norm R * O.P.OMEGA * cos lat * (-sin lon) by linarith only [hx0],
        show U.y = V3.norm R * O.P.OMEGA * cos lat * cos lon by linarith only [hy0], hz0]
      linear_combination ((V3.norm R * O.P.OMEGA * cos lat) ^ 2) * sc
    have hc1 : cos lat ^ 2 ≤ 1 := cos_sq_le_one lat
    have := mul_le_mul_of_nonneg_left hc1 (sq_nonneg (V3.norm R * O.P.OMEGA))
    rw [hs] at hsp
    linarith only [this, hsp]
  set au := (1 / V3.norm Ua) • Ua with hau
  have hauu : V3.dot au au = 1 := V3.unit_dot_self hUa0
  have hruu : V3.dot ru ru = 1 := V3.unit_dot_self hR0
  set par : V3 := ⟨-sin lon, cos lon, 0.0⟩ with hpar
  have hparu : V3.dot par par = 1 := by
    have sc := sin_sq_add_cos_sq lon
    have l0 : (0.0:ℝ) = 0 := by norm_num
    simp only [hpar, V3.dot, l0]; linarith only [sc]
  have hproj : -1 ≤ V3.dot (au - V3.dot au ru • ru) par ∧ V3.dot (au - V3.dot au ru • ru) par ≤ 1 := by
    have h1 := V3.abs_dot_le (au - V3.dot au ru • ru) par
    rw [V3.norm_of_dot_one hparu, mul_one] at h1
    have h2 : V3.norm (au - V3.dot au ru • ru) ≤ 1 := by
      have h3 : V3.norm (au - V3.dot au ru • ru) ^ 2 = 1 - V3.dot au ru ^ 2 := by
        rw [V3.norm_sq]
        have : ∀ (x y : V3) (k : ℝ), V3.dot (x - k • y) (x - k • y) = V3.dot x x - 2 * k * V3.dot x y + k ^ 2 * V3.dot y y := by
          intro x y k
          simp only [V3.dot, V3.sub_x, V3.sub_y, V3.sub_z, V3.smul_x, V3.smul_y, V3.smul_z]; ring
        rw [this, hauu, hruu]; ring
      refine le_of_sq_le_sq ?_ zero_le_one
      rw [h3]; have := sq_nonneg (V3.dot au ru); linarith only [this]
    exact abs_le.mp (h1.trans h2)
  have hd1 := V3.dot_unit_le hruu (V3.unit_dot_self hU0)
  refine ⟨⟨R, U, -1 * g, lat, lon, Ua, π / 2 - arccos (V3.dot ru ((1 / V3.norm U) • U)),
    arccos (V3.dot (au - V3.dot au ru • ru) par)⟩, ?_, rfl, rfl, rfl⟩
  unfold Orbiter.probeEntry
  rw [ht]
  simp only [bind, Option.bind, pure]
  rw [hR]
  simp only []
  rw [npUnit_some hR0, hU]
  simp only []
  rw [npUnit_some hU0, npDiv_some (by positivity)]
  simp only []
  rw [hg]
  simp only []
  rw [← hru, npDiv_some hx']
  simp only []
  rw [← hlat, ← hlon, ← hUa, npUnit_some hUa0]
  simp only []
  rw [npArccos_some hd1]
  simp only []
  rw [← hau, ← hpar, npArccos_some hproj]

/-- C70: the recorded inertial entry state.  If the entry point is not on the meridian plane `x = 0` and the entry speed
exceeds the surface speed at the interface, the whole entry record exists: position at the interface, speed equal to the
vis-viva speed of the probe orbit at the interface, inertial flight-path angle in `[-π/2, 0]` with
`h = r v cos γ`. -/
theorem C70_entry_state_partial (name : String) (O : Orbiter) (hP : Planet.init name = .ok O.P) (hr : 0 < O.s.r) (R U : V3)
    (hR : R = Spec.pos O.s.r O.s.theta O.s.phi)
    (hUd : U = Spec.vel O.s.theta O.s.phi O.s.v O.s.psi O.s.g + V3.cross (Spec.spin O.P.OMEGA) R)
    (hE : Spec.energy O.P.GM R U < 0) (hne : (V3.cross R U).x ≠ 0 ∨ (V3.cross R U).y ≠ 0)
    (hecc : Spec.eccVec O.P.GM R U ≠ 0) (hq : 0 < O.P.RP + O.periAltKm * 1000)
    (th dV : ℝ) (R1 U1 U2 : V3) (hR1 : O.pos th = some R1) (hU1 : O.vel th = some U1) (hdV : -V3.norm U1 < dV)
    (hU2 : U2 = U1 + (dV / V3.norm U1) • U1) (hE2 : Spec.energy O.P.GM R1 U2 < 0) :
    ∃ self probe, O.orbit = some self ∧ O.probeElements th dV = some probe ∧
      ∀ t Rp, probe.a * (1 - probe.e) < O.P.RP + O.P.hSkip → O.P.RP + O.P.hSkip ≤ probe.a * (1 + probe.e) →
        O.probeEntryAnomaly probe = some t → posProbe O.P.GM self probe t = some Rp → Rp.x ≠ 0 →
        ((O.P.RP + O.P.hSkip) * O.P.OMEGA) ^ 2 < O.P.GM * (2 / (O.P.RP + O.P.hSkip) - 1 / probe.a) →
        ∃ pe, O.probeEntry self probe = some pe ∧ pe.R = Rp ∧ V3.norm pe.R = O.P.RP + O.P.hSkip ∧
          V3.norm pe.U = sqrt (O.P.GM * (2 / (O.P.RP + O.P.hSkip) - 1 / probe.a)) ∧
          -(π / 2) ≤ pe.gammaInertial ∧ pe.gammaInertial ≤ 0 ∧
          (O.P.RP + O.P.hSkip) * V3.norm pe.U * cos pe.gammaInertial = probe.h := by
  obtain ⟨self, probe, h1, h2, h3⟩ := C70_entry_interface_partial name O hP hr R U hR hUd hE hne hecc hq th dV R1 U1 U2 hR1 hU1 hdV hU2 hE2
  refine ⟨self, probe, h1, h2, fun t Rp hlo hhi ht hRp hx hsp => ?_⟩
  obtain ⟨t', Rp', t1, t2, ht', hRp', hn', -⟩ := h3 hlo hhi
  rw [ht] at ht'
  obtain rfl := Option.some.inj ht'
  rw [hRp] at hRp'
  obtain rfl := Option.some.inj hRp'
  clear ht' hRp' h3
  obtain ⟨_, hRP, hGM, _, _, hT, hTS, _⟩ := C01_planet_consistent name O.P hP
  obtain ⟨coast, u, w, hc, S, hRn⟩ := coast_core hGM hr hR hUd hE hne hecc
  obtain ⟨-, el, hO, K, ho, -, -⟩ := prm_core S.ok hRP hc hq
  rw [hO] at h1
  obtain rfl := Option.some.inj h1
  obtain ⟨probe', up, wp, hpr, Sp, hwp, hd, hph, hn, -, hpos⟩ := probe_core S K ho hO hne hR1 hU1 hdV hU2 hE2
  rw [hpr] at h2
  obtain rfl := Option.some.inj h2
  have Kp := Sp.ok
  have hr0 : 0 < O.P.RP + O.P.hSkip := by
    have : 0 < probe'.a * (1 - probe'.e) := mul_pos Kp.apos (by linarith [Kp.e1])
    linarith
  have hrad : EllipseOK.rad O.P.GM probe' t = O.P.RP + O.P.hSkip := by
    rw [hpos] at hRp
    rw [← Option.some.inj hRp, V3.norm_smul, abs_of_pos (Kp.rad_pos t)] at hn'
    have h1 := EllipseOK.norm_polar K.uu K.ww K.uw 1 0 t
    have : (1:ℝ) • (cos t • u + sin t • V3.cross w u) + (0:ℝ) • ((-sin t) • u + cos t • V3.cross w u) =
        cos t • u + sin t • V3.cross w u := by ext <;> simp
    rw [this] at h1
    rw [h1] at hn'
    norm_num at hn'
    exact hn'
  set r := O.P.RP + O.P.hSkip with hrd
  set v := EllipseOK.spd O.P.GM probe' t with hv
  have hvp : 0 < v := Kp.spd_pos t
  have hv2 : v = sqrt (O.P.GM * (2 / r - 1 / probe'.a)) := by rw [hv]; unfold EllipseOK.spd; rw [hrad]
  have hsa := Kp.speedAngle_eq t
  rw [hrad] at hsa
  set g := arccos (probe'.h / (r * v) / kap) with hg
  set Uv := conicVel (v * sin (-1 * g)) (v * cos (-1 * g)) probe'.o t with hUv
  have hvel : velProbe O.P.GM el probe' t = some Uv := by
    unfold velProbe
    rw [hRp]
    simp only [bind, Option.bind, pure]
    rw [hn', hsa]
  have hUn : V3.norm Uv = v := by
    rw [hUv, Kp.vel, EllipseOK.norm_polar Kp.uu Kp.ww Kp.uw]
    rw [show (v * sin (-1 * g)) ^ 2 + (v * cos (-1 * g)) ^ 2 = v ^ 2 * (sin (-1 * g) ^ 2 + cos (-1 * g) ^ 2) by ring,
      sin_sq_add_cos_sq, mul_one, sqrt_sq hvp.le]
  obtain ⟨q1, q2⟩ := Kp.ratio t
  rw [hrad, ← hv] at q1 q2
  have hv3 : v ^ 2 = O.P.GM * (2 / r - 1 / probe'.a) := by
    rw [hv2, sq_sqrt]
    exact le_trans (sq_nonneg _) hsp.le
  obtain ⟨pe, hpe, p1, p2, p3⟩ := probeEntry_some (g := arccos (probe'.h / (r * v))) ht hRp hx hvel hr0
    (by rw [hUn, npArccos_some ⟨by linarith only [q1], q2⟩]) (by rw [hn', hUn, hv3]; exact hsp)
  refine ⟨pe, hpe, p1, by rw [p1, hn'], by rw [p2, hUn, hv2], ?_, ?_, ?_⟩
  · have := arccos_le_pi_div_two.mpr q1.le
    rw [p3]; linarith only [this]
  · have := arccos_nonneg (probe'.h / (r * v))
    rw [p3]; linarith only [this]
  · rw [p3, p2, hUn, neg_one_mul, cos_neg, cos_arccos (by linarith only [q1]) q2]
    field_simp

set_option maxHeartbeats 1600000 in
/-- Case for `C70_entry_interface_partial` and `C71_atm_angle_is_inertial`: from the polar Mars orbit with a target periapsis altitude of 50 km (below the interface
at 120 km), releasing without a burn at periapsis gives an entering probe with a complete entry record. -/
theorem mars_low_release : ∃ (O : Orbiter) (self probe : Elements) (pe : Orbiter.ProbeEntry), O.orbit = some self ∧
    O.probeElements 0 0 = some probe ∧ probe.a * (1 - probe.e) < O.P.RP + O.P.hSkip ∧
    O.P.RP + O.P.hSkip ≤ probe.a * (1 + probe.e) ∧ O.probeEntry self probe = some pe ∧ 0 < pe.R.x := by
  obtain ⟨O, hP, hr, hq, hper, h⟩ := mars_exit 50 (by norm_num)
  obtain ⟨hE, hy, hecc, -, hR, hU⟩ := h _ _ rfl rfl
  have hRPv : O.P.RP = 3389.5e3 := by simp [Planet.init] at hP; rw [← hP]; rfl
  have hGMv : O.P.GM = 4.282837e13 := by simp [Planet.init] at hP; rw [← hP]; rfl
  have hOM : O.P.OMEGA = 7.088253e-5 := by simp [Planet.init] at hP; rw [← hP]; rfl
  have hSk : O.P.hSkip = 120e3 := by simp [Planet.init] at hP; rw [← hP]; rfl
  obtain ⟨_, hRP, hGM, _⟩ := C01_planet_consistent "MARS" O.P hP
  obtain ⟨coast, u, w, hc, S, hRn⟩ := coast_core hGM hr rfl rfl hE (Or.inr hy) hecc
  obtain ⟨-, el, hO, K, ho, a1, a2⟩ := prm_core S.ok hRP hc hq
  obtain ⟨U1, hU1, hUn⟩ := K.velocity_norm 0
  set R1 := cPos (el.h ^ 2 / O.P.GM) el.e u (V3.cross w u) 0 with hR1d
  have hR1 : orbitPos O.P.GM el 0 = some R1 := K.pos 0
  have hR1' : O.pos 0 = some R1 := by unfold Orbiter.pos; rw [hO]; exact hR1
  have hU1' : O.vel 0 = some U1 := by unfold Orbiter.vel; rw [hO]; exact hU1
  obtain ⟨r0, u0, d0, n0, x0, f0⟩ := ellipse_rv K hR1 hU1
  have hUp := V3.norm_pos u0
  have hU2 : U1 = U1 + (0 / V3.norm U1) • U1 := by ext <;> simp
  have hEn : Spec.energy O.P.GM R1 U1 = -(O.P.GM / (2 * el.a)) := by
    unfold Spec.energy
    rw [n0, hUn]
    have h2 : EllipseOK.spd O.P.GM el 0 ^ 2 = O.P.GM * (2 / EllipseOK.rad O.P.GM el 0 - 1 / el.a) := by
      unfold EllipseOK.spd; rw [sq_sqrt (by rw [K.spd_sq]; positivity)]
    rw [h2]; field_simp; ring
  have ha := K.apos
  have hE2 : Spec.energy O.P.GM R1 U1 < 0 := by
    rw [hEn]
    have : 0 < O.P.GM / (2 * el.a) := by positivity
    linarith only [this]
  obtain ⟨probe, up, wp, hpr, Sp, hwp, hd, hph, hn, hf, hpos⟩ := probe_core S K ho hO (Or.inr hy) hR1' hU1' (by linarith) hU2 hE2
  -- the coast apoapsis
  have hcoa : coast.a = 4.282837e13 / (2 * (4.282837e13 / 3509500 - ((3509500 * 7.088253e-5) ^ 2 + 4000 ^ 2) / 2)) := by
    have hn : V3.norm (⟨3509500, 0, 0⟩ : V3) = 3509500 := by
      apply V3.norm_eq_of_sq (by norm_num); simp only [V3.dot]; norm_num
    have hU2 : V3.norm (⟨0, 3509500 * 7.088253e-5, 4000⟩ : V3) ^ 2 = (3509500 * 7.088253e-5) ^ 2 + 4000 ^ 2 := by
      rw [V3.norm_sq]; simp only [V3.dot]; ring
    have := S.ha
    rw [hU, hR] at this
    unfold Spec.energy at this
    rw [hn, hU2, hGMv] at this
    rw [this]; norm_num
  have hce : coast.e • u = ⟨(1 / 4.282837e13 * ((3509500 * 7.088253e-5) ^ 2 + 4000 ^ 2) - 1 / 3509500) * 3509500, 0, 0⟩ := by
    rw [← S.he]
    have hn : V3.norm (⟨3509500, 0, 0⟩ : V3) = 3509500 := by
      apply V3.norm_eq_of_sq (by norm_num); simp only [V3.dot]; norm_num
    rw [hU, hR]
    unfold Spec.eccVec
    rw [triple_id, hn, hGMv]
    ext <;> simp only [V3.sub_x, V3.sub_y, V3.sub_z, V3.smul_x, V3.smul_y, V3.smul_z, V3.dot] <;> norm_num
  have hcpos := S.epos
  have hux : coast.e * u.x = (1 / 4.282837e13 * ((3509500 * 7.088253e-5) ^ 2 + 4000 ^ 2) - 1 / 3509500) * 3509500 := congrArg V3.x hce
  have huy : u.y = 0 := by have : coast.e * u.y = 0 := congrArg V3.y hce; exact (mul_eq_zero.mp this).resolve_left hcpos.ne'
  have huz : u.z = 0 := by have : coast.e * u.z = 0 := congrArg V3.z hce; exact (mul_eq_zero.mp this).resolve_left hcpos.ne'
  have hux1 : u.x = 1 := by
    have h1 := K.uu
    simp only [V3.dot, huy, huz] at h1
    have h2 : 0 < u.x := by
      have : 0 < coast.e * u.x := by rw [hux]; norm_num
      exact pos_of_mul_pos_right this hcpos.le
    nlinarith only [h1, h2]
  have hce2 : 0.3 < coast.e := by rw [hux1, mul_one] at hux; rw [hux]; norm_num
  have hca2 : 5000000 < coast.a := by rw [hcoa]; norm_num
  have hra : 6000000 < el.a * (1 + el.e) := by rw [a2]; nlinarith only [hce2, hca2]
  have hrp : el.a * (1 - el.e) = 3439500 := by rw [a1, hRPv, hper]; norm_num
  have hrE : O.P.RP + O.P.hSkip = 3509500 := by rw [hRPv, hSk]; norm_num
  have hpa : probe.a = el.a := by
    rw [Sp.ha, hEn]; field_simp
  have hk := kap_gt
  have hel : 0 < el.e := by nlinarith only [hra, hrp, ha]
  have hpe2 : el.e < probe.e := by
    have h1 := Sp.ok.hsq
    rw [hpa, hph] at h1
    have h2 : ((1 + 0 / V3.norm U1) * (el.h / kap)) ^ 2 < el.h ^ 2 := by
      rw [zero_div, add_zero, one_mul]
      have hh := K.hpos
      have : el.h / kap < el.h := by rw [div_lt_iff₀ (by linarith only [hk])]; nlinarith only [hh, hk]
      have h0 : 0 < el.h / kap := div_pos hh (by linarith only [hk])
      exact pow_lt_pow_left₀ this h0.le two_ne_zero
    rw [h1, K.hsq] at h2
    have h3 : 0 < O.P.GM * el.a := by positivity
    have h4 : 1 - probe.e ^ 2 < 1 - el.e ^ 2 := lt_of_mul_lt_mul_left h2 h3.le
    have h5 := Sp.epos
    nlinarith only [h4, h5, hel]
  have hlo : probe.a * (1 - probe.e) < O.P.RP + O.P.hSkip := by rw [hrE, hpa]; nlinarith only [hrp, hpe2, ha]
  have hhi : O.P.RP + O.P.hSkip ≤ probe.a * (1 + probe.e) := by rw [hrE, hpa]; nlinarith only [hra, hpe2, ha]
  obtain ⟨self', probe', o1, o2, o3⟩ := C70_entry_interface_partial "MARS" O hP hr _ _ rfl rfl hE (Or.inr hy) hecc hq 0 0 R1 U1 U1
    hR1' hU1' (by linarith) hU2 hE2
  rw [hO] at o1; obtain rfl := Option.some.inj o1
  rw [hpr] at o2; obtain rfl := Option.some.inj o2
  obtain ⟨t, Rp, t1, t2, ht, hRp, hRpn, -⟩ := o3 hlo hhi
  have hRpx : 0 < Rp.x := by
    rw [hpos] at hRp
    rw [← Option.some.inj hRp]
    have hr0 := Sp.ok.rad_pos t
    simp only [V3.smul_x, V3.add_x, V3.cross, hux1, huy, huz]
    have hcos : EllipseOK.rad O.P.GM probe t = 3509500 := by
      rw [← Option.some.inj hRp, V3.norm_smul, abs_of_pos hr0] at hRpn
      have h1 := EllipseOK.norm_polar K.uu K.ww K.uw 1 0 t
      have : (1:ℝ) • (cos t • u + sin t • V3.cross w u) + (0:ℝ) • ((-sin t) • u + cos t • V3.cross w u) =
          cos t • u + sin t • V3.cross w u := by ext <;> simp
      rw [this] at h1
      rw [h1] at hRpn
      norm_num at hRpn
      rw [hRpn, hrE]
    have hct : 0 < cos t := by
      by_contra hn
      have hn := not_lt.mp hn
      unfold EllipseOK.rad at hcos
      rw [div_eq_iff (Sp.ok.den t).ne', hph, zero_div, add_zero, one_mul, div_pow, K.hsq] at hcos
      have h9 : 3509500 * (1 + probe.e * cos t) ≤ 3509500 := by
        have := mul_nonpos_of_nonneg_of_nonpos Sp.epos.le hn
        linarith only [this]
      have hk2 : kap ^ 2 = 1.0000001 ^ 2 := rfl
      have h5 : el.a * (1 - el.e) * (1 + el.e) ≤ 3509500 * kap ^ 2 := by
        have h6 : O.P.GM * el.a * (1 - el.e ^ 2) / kap ^ 2 / O.P.GM = el.a * (1 - el.e) * (1 + el.e) / kap ^ 2 := by
          field_simp; ring
        rw [← hcos, h6, div_le_iff₀ (by positivity)] at h9
        exact h9
      rw [hrp, hk2] at h5
      have h7 : 1 + el.e < 1.1 := by norm_num at h5 ⊢; linarith only [h5]
      have h8 : el.a < 3900000 := by nlinarith only [h7, hrp, ha]
      nlinarith only [h7, h8, hra, ha]
    have := mul_pos hr0 hct
    linarith only [this]
  obtain ⟨self', probe', o1, o2, o3⟩ := C70_entry_state_partial "MARS" O hP hr _ _ rfl rfl hE (Or.inr hy) hecc hq 0 0 R1 U1 U1
    hR1' hU1' (by linarith) hU2 hE2
  rw [hO] at o1; obtain rfl := Option.some.inj o1
  rw [hpr] at o2; obtain rfl := Option.some.inj o2
  obtain ⟨pe, hpe, hpR, -⟩ := o3 t Rp hlo hhi ht hRp hRpx.ne' (by
    rw [hrE, hOM, hpa, hGMv]
    have h1 : 3509500 < el.a := by linarith only [hra, hrp]
    have h2 : 1 / el.a < 1 / 3509500 := one_div_lt_one_div_of_lt (by norm_num) h1
    linarith only [h2])
  exact ⟨O, el, probe, pe, hO, hpr, hlo, hhi, hpe, by rw [hpR]; exact hRpx⟩

end AMAT.Props
