import Verif.Props.ProbeEntryPoint
import Verif.Props.OrbitFlown

/-
Property C154: the flight of a probe after its release from an orbiter.
-/

noncomputable section

open Real

namespace AMAT.Props

open Real AMAT AMAT.Spec

/-- The distance at an anomaly lies between the apsides, and depends on the anomaly through its cosine only. -/
theorem rad_order {GM : ℝ} {el : Elements} {u w : V3} (K : EllipseOK GM el u w) (he : 0 < el.e) {x y : ℝ} (h : cos x < cos y) :
    EllipseOK.rad GM el y < EllipseOK.rad GM el x := by
  unfold EllipseOK.rad
  have hp : 0 < el.h ^ 2 / GM := div_pos (by have := K.hpos; positivity) K.gm
  have := mul_lt_mul_of_pos_left h he
  exact div_lt_div_of_pos_left hp (K.den x) (by linarith)

theorem rad_apses {GM : ℝ} {el : Elements} {u w : V3} (K : EllipseOK GM el u w) :
    (∀ x, cos x = 1 → EllipseOK.rad GM el x = el.a * (1 - el.e)) ∧ (∀ x, cos x = -1 → EllipseOK.rad GM el x = el.a * (1 + el.e)) := by
  have h0 := K.e0
  have h1 := K.e1
  unfold EllipseOK.rad
  refine ⟨fun x hx => ?_, fun x hx => ?_⟩
  · have : (1:ℝ) + el.e * 1 ≠ 0 := by linarith
    rw [hx, ellipse_shape K, div_eq_iff this]; ring
  · have : (1:ℝ) + el.e * -1 ≠ 0 := by linarith
    rw [hx, ellipse_shape K, div_eq_iff this]; ring

theorem rad_bounds {GM : ℝ} {el : Elements} {u w : V3} (K : EllipseOK GM el u w) (he : 0 < el.e) (x : ℝ) :
    el.a * (1 - el.e) ≤ EllipseOK.rad GM el x ∧ EllipseOK.rad GM el x ≤ el.a * (1 + el.e) := by
  obtain ⟨p1, p2⟩ := rad_apses K
  constructor
  · rcases (cos_le_one x).lt_or_eq with h | h
    · rw [← p1 0 cos_zero]; exact (rad_order K he (by rwa [cos_zero])).le
    · rw [p1 x h]
  · rcases (neg_one_le_cos x).lt_or_eq with h | h
    · rw [← p2 π cos_pi]; exact (rad_order K he (by rwa [cos_pi])).le
    · rw [p2 x h.symm]

set_option maxHeartbeats 800000 in
/-- C154: every free motion of the probe from the release state keeps between the apsides of the stored elements and reaches
both.  On a new Orbiter the trajectory is computed exactly when the probe comes below the entry interface; otherwise the call
fails.  If it does, and was released above, the first passage of the interface is inbound; the recorded entry point is
`2 r |sin (D / 2)|` away from it and the recorded inertial speed is that of the passage.

Partial: full claim is that the recorded entry state is the state at the passage; false by the turn `D` of the line of apsides
(`C119_quarter_release`). -/
theorem C154_release_flown_partial (name : String) (O : Orbiter) (hP : Planet.init name = .ok O.P) (th dV : ℝ) (R1 U1 U2 : V3)
    (h : Spec.Release O th dV R1 U1 U2) : ∃ self probe, O.orbit = some self ∧ O.probeElements th dV = some probe ∧
    (∃ R U, StartsAt O.P.GM R1 U2 R U) ∧ ∀ R U, StartsAt O.P.GM R1 U2 R U →
      (∀ s, probe.a * (1 - probe.e) ≤ V3.norm (R s) ∧ V3.norm (R s) ≤ probe.a * (1 + probe.e)) ∧
      (∃ s, 0 < s ∧ V3.norm (R s) = probe.a * (1 + probe.e) ∧ ∃ s', s < s' ∧ V3.norm (R s') = probe.a * (1 - probe.e)) ∧
      (∀ n, (∃ x, O.probeTrajectory self probe none th n = .ok x) ↔ ∃ s, 0 < s ∧ V3.norm (R s) < O.P.RP + O.P.hSkip) ∧
      ∀ r, r = O.P.RP + O.P.hSkip → probe.a * (1 - probe.e) < r → r ≤ V3.norm R1 →
        ∃ s, 0 < s ∧ V3.norm (R s) = r ∧ V3.dot (R s) (U s) < 0 ∧ (∀ s', 0 < s' → s' < s → r < V3.norm (R s')) ∧
          ∀ pe, O.probeEntry self probe = some pe →
            V3.norm (pe.R - R s) = 2 * r * |sin ((probe.o.omega - self.o.omega) / 2)| ∧ V3.norm pe.U = V3.norm (U s) := by
  obtain ⟨el, probe, u, w, up, F⟩ := release_facts hP h
  have K := F.S.ok
  have he := F.S.epos
  have hh := K.hpos
  have hg := K.gm
  have hp : 0 < probe.h ^ 2 / O.P.GM := div_pos (by positivity) hg
  have hpi := pi_pos
  obtain ⟨t1, a1, a2, -, on⟩ := F.S.on_orbit F.out.le
  have von := vel_of_core F.S on
  obtain ⟨ex, cl⟩ := conic_clock (e := probe.e) hg hh K.e0 K.e1 K.uu K.ww K.uw t1
  rw [on, von] at ex
  set T := anomalyTime (probe.h ^ 2 / O.P.GM) probe.e probe.h t1 with hT
  have hmono : StrictMono T := anomalyTime_mono hp K.e0 K.e1 hh t1
  have hsurj : Function.Surjective T := anomalyTime_surj hp K.e0 K.e1 hh t1
  have hT0 : T t1 = 0 := anomalyTime_start _ _ _ _
  have hrad : ∀ x, V3.norm (cPos (probe.h ^ 2 / O.P.GM) probe.e up (V3.cross w up) x) = EllipseOK.rad O.P.GM probe x :=
    fun x => cPos_norm K.uu K.ww K.uw K.e0 K.e1 K.apos (ellipse_shape K) x
  have hdot : ∀ x, V3.dot (cPos (probe.h ^ 2 / O.P.GM) probe.e up (V3.cross w up) x)
      (cVel (O.P.GM / probe.h) probe.e up (V3.cross w up) x) = EllipseOK.rad O.P.GM probe x * (O.P.GM / probe.h * probe.e * sin x) := by
    intro x
    obtain ⟨-, -, -, -, -, b3, -⟩ := conic_state (e := probe.e) (t := x) hg hh K.uu K.ww K.uw (K.den x) rfl rfl rfl
    rw [cVel_eq] at b3
    exact b3
  have hspd : ∀ x, V3.norm (cVel (O.P.GM / probe.h) probe.e up (V3.cross w up) x) = EllipseOK.spd O.P.GM probe x := by
    intro x
    obtain ⟨-, -, -, -, b2, -⟩ := conic_state (e := probe.e) (t := x) hg hh K.uu K.ww K.uw (K.den x) rfl rfl rfl
    rw [cVel_eq] at b2
    apply V3.norm_eq_of_sq (K.spd_pos x).le
    rw [b2]
    unfold EllipseOK.spd
    rw [sq_sqrt (by rw [K.spd_sq]; positivity), K.spd_sq]
  obtain ⟨p1, p2⟩ := rad_apses K
  have hR1 : V3.norm R1 = EllipseOK.rad O.P.GM probe t1 := by rw [← on]; exact hrad t1
  have hs1 : 0 < sin t1 := by
    have ho := F.out
    rw [← on, ← von, hdot t1] at ho
    have hc : 0 < EllipseOK.rad O.P.GM probe t1 * (O.P.GM / probe.h * probe.e) := by
      have := K.rad_pos t1; positivity
    rw [← mul_assoc] at ho
    exact pos_of_mul_pos_right ho hc.le
  have ht1 : t1 < π := lt_of_le_of_ne a2 (by rintro rfl; rw [sin_pi] at hs1; exact lt_irrefl _ hs1)
  refine ⟨el, probe, F.orbit, F.elements, ex, fun R U hs => ?_⟩
  have clock := cl R U hs.1 (hs.2.1.trans on.symm) (hs.2.2.trans von.symm)
  have hR : ∀ x, V3.norm (R (T x)) = EllipseOK.rad O.P.GM probe x := fun x => by rw [(clock x).1, hrad]
  have hTpi : 0 < T π := by rw [← hT0]; exact hmono ht1
  have hT2 : T π < T (2 * π) := hmono (by linarith)
  refine ⟨fun s => ?_, ⟨T π, hTpi, by rw [hR, p2 _ cos_pi], T (2 * π), hT2, by rw [hR, p1 _ cos_two_pi]⟩, fun n => ?_, ?_⟩
  · obtain ⟨x, rfl⟩ := hsurj s
    rw [hR]; exact rad_bounds K he x
  · have e1 : (∃ s, 0 < s ∧ V3.norm (R s) < O.P.RP + O.P.hSkip) ↔ probe.a * (1 - probe.e) < O.P.RP + O.P.hSkip := by
      constructor
      · rintro ⟨s, -, hs⟩
        obtain ⟨x, rfl⟩ := hsurj s
        rw [hR] at hs
        exact lt_of_le_of_lt (rad_bounds K he x).1 hs
      · intro hlt
        exact ⟨T (2 * π), by linarith, by rwa [hR, p1 _ cos_two_pi]⟩
    rw [e1]
    unfold Orbiter.probeTrajectory
    by_cases hlt : probe.a * (1 - probe.e) < O.P.RP + O.P.hSkip
    · have h2 : probe.a * (1 - probe.e) - O.P.RP < O.P.hSkip := by linarith
      simp only [h2, if_true, hlt, iff_true]
      exact ⟨_, rfl⟩
    · have h2 : ¬ probe.a * (1 - probe.e) - O.P.RP < O.P.hSkip := by intro h3; exact hlt (by linarith)
      simp only [h2, if_false, hlt, iff_false]
      rintro ⟨x, hx⟩
      cases hx
  · intro r hr hlo hr1
    have hhi : r ≤ probe.a * (1 + probe.e) := hr1.trans (apoapsis_bound F.S)
    obtain ⟨el', probe', q1, q2, q3⟩ := C70_entry_interface_partial name O hP h.r _ _ rfl rfl h.bound h.tilted h.ecc h.peri th dV
      R1 U1 U2 h.pos h.vel h.forward h.after h.stays
    rw [F.orbit] at q1
    obtain rfl := Option.some.inj q1
    rw [F.elements] at q2
    obtain rfl := Option.some.inj q2
    rw [← hr] at q3
    obtain ⟨t, Rp, b1, b2, ht, hRp, hn, -⟩ := q3 hlo hhi
    have hr0 : 0 < r := lt_trans (mul_pos K.apos (by linarith [K.e1])) hlo
    have hrt : EllipseOK.rad O.P.GM probe t = r := by
      obtain ⟨R', U', d1, -, d2, -⟩ := deflect_state F t _ _ _ rfl rfl rfl
      rw [hRp] at d1
      rw [← d2, ← Option.some.inj d1, hn]
    have c1 : π < t := by
      refine lt_of_le_of_ne b1 ?_
      rintro rfl
      have : cos π < cos t1 := cos_lt_cos_of_nonneg_of_le_pi a1 le_rfl ht1
      have := rad_order K he this
      linarith
    have c2 : t < 2 * π := by
      refine lt_of_le_of_ne b2 ?_
      rintro rfl
      rw [p1 _ cos_two_pi] at hrt
      linarith
    have hst : sin t < 0 := by
      have := sin_pos_of_pos_of_lt_pi (x := t - π) (by linarith) (by linarith)
      rw [sin_sub_pi] at this
      linarith
    refine ⟨T t, by rw [← hT0]; exact hmono (by linarith), by rw [hR, hrt], ?_, ?_, fun pe hpe => ?_⟩
    · rw [(clock t).1, (clock t).2, hdot, hrt, ← mul_assoc]
      exact mul_neg_of_pos_of_neg (by positivity) hst
    · intro s' g1 g2
      obtain ⟨x, rfl⟩ := hsurj s'
      rw [← hT0, hmono.lt_iff_lt] at g1
      rw [hmono.lt_iff_lt] at g2
      rw [hR]
      rcases le_or_gt x π with hx | hx
      · exact lt_of_le_of_lt (hr1.trans hR1.le) (rad_order K he (cos_lt_cos_of_nonneg_of_le_pi a1 hx g1))
      · rw [← hrt]
        apply rad_order K he
        have := cos_lt_cos_of_nonneg_of_le_pi (x := 2 * π - t) (y := 2 * π - x) (by linarith) (by linarith) (by linarith)
        rwa [cos_two_pi_sub, cos_two_pi_sub] at this
    · obtain ⟨t', ht', hR', hU'⟩ := probeEntry_inv hpe
      rw [ht] at ht'
      obtain rfl := Option.some.inj ht'
      obtain ⟨R', U', d1, d2, -, d3, d4, -⟩ := deflect_state F t _ _ _ rfl rfl rfl
      rw [d1] at hR'
      rw [d2] at hU'
      rw [← Option.some.inj hR', ← Option.some.inj hU', (clock t).1, (clock t).2, d3, hspd, d4]
      refine ⟨?_, rfl⟩
      have e2 : cPos (probe.h ^ 2 / O.P.GM) probe.e up (V3.cross w up) t =
          EllipseOK.rad O.P.GM probe t • (cos t • up + sin t • V3.cross w up) := rfl
      rw [e2, turned_distance F.K.uu F.K.ww F.K.uw (K.rad_pos t).le F.turn t, hrt]

/-- Case for `C154_release_flown_partial`: the release of `mars_quarter_release`, above the interface onto an orbit below it. -/
theorem C154_case : ∃ (O : Orbiter) (R1 U1 U2 : V3) (probe : Elements), Planet.init "MARS" = .ok O.P ∧
    Spec.Release O (π / 2) (-(V3.norm U1 / 2)) R1 U1 U2 ∧ O.probeElements (π / 2) (-(V3.norm U1 / 2)) = some probe ∧
    probe.a * (1 - probe.e) < O.P.RP + O.P.hSkip ∧ O.P.RP + O.P.hSkip ≤ V3.norm R1 := by
  obtain ⟨O, R1, U1, U2, hP, h, hper, hRe, hUe⟩ := mars_release (π / 2)
  have hRPv : O.P.RP = 3389.5e3 := by simp [Planet.init] at hP; rw [← hP]; rfl
  have hGMv : O.P.GM = 4.282837e13 := by simp [Planet.init] at hP; rw [← hP]; rfl
  have hOM : O.P.OMEGA = 7.088253e-5 := by simp [Planet.init] at hP; rw [← hP]; rfl
  have hSk : O.P.hSkip = 120e3 := by simp [Planet.init] at hP; rw [← hP]; rfl
  have hrE : O.P.RP + O.P.hSkip = 3509500 := by rw [hRPv, hSk]; norm_num
  obtain ⟨_, hRP, hGM, _⟩ := C01_planet_consistent "MARS" O.P hP
  obtain ⟨el, probe, u, w, up, F⟩ := release_facts hP h
  have hper1 : el.a * (1 - el.e) = 3789500 ∧ 3509500 ≤ el.a * (1 + el.e) := by
    obtain ⟨coast, u, w, hc, S, -⟩ := coast_core hGM h.r rfl rfl h.bound h.tilted h.ecc
    obtain ⟨-, el', hO, -, -, a1, a2⟩ := prm_core S.ok hRP hc h.peri
    rw [F.orbit] at hO
    rw [Option.some.inj hO, a1, a2, hRPv, hper]
    refine ⟨by norm_num, ?_⟩
    have hn : V3.norm (Spec.exitPos O) = 3509500 := by
      rw [hRe]; apply V3.norm_eq_of_sq (by norm_num); simp only [V3.dot]; norm_num
    rw [← hn]
    exact apoapsis_bound S
  obtain ⟨hper1, hapo1⟩ := hper1
  have hU1p : 0 < V3.norm U1 := by have := h.forward; linarith
  have hk := kap_gt
  have Kp := F.S.ok
  have he0 := F.S.epos
  have he1 := Kp.e1
  have ha0 := Kp.apos
  -- the angular momenta
  have hel : el.h ^ 2 / O.P.GM = 3789500 * (1 + el.e) := by
    rw [F.K.hsq, ← hper1]; field_simp; ring
  have hpp : probe.h ^ 2 / O.P.GM < 1894750 := by
    have h1 : probe.h ^ 2 < el.h ^ 2 / 4 := by
      have h2 : probe.h = 1 / 2 * (el.h / kap) := by rw [F.h]; congr 1; field_simp; norm_num
      have h3 : el.h / kap < el.h := div_lt_self F.K.hpos hk
      have h4 : 0 < el.h / kap := div_pos F.K.hpos (by linarith)
      rw [h2]; nlinarith
    have h5 : probe.h ^ 2 / O.P.GM < el.h ^ 2 / O.P.GM / 4 := by
      rw [div_div, div_lt_div_iff₀ hGM (by positivity)]
      nlinarith
    have := F.K.e1
    rw [hel] at h5
    linarith
  have hpa : probe.h ^ 2 / O.P.GM = probe.a * (1 - probe.e) * (1 + probe.e) := by
    rw [Kp.hsq]; field_simp; ring
  have hR1n : 3600000 ≤ V3.norm R1 := by
    have h1 : V3.norm R1 = 3789500 * (1 + el.e) := by
      rw [F.rad, ← hel]; unfold EllipseOK.rad; rw [cos_pi_div_two, mul_zero, add_zero, div_one]
    have h2 : 3509500 * (1 - el.e) ≤ el.a * (1 + el.e) * (1 - el.e) :=
      mul_le_mul_of_nonneg_right hapo1 (by linarith [F.K.e1])
    have h3 : el.a * (1 + el.e) * (1 - el.e) = 3789500 * (1 + el.e) := by rw [← hper1]; ring
    rw [h1]
    linarith
  have hlo : probe.a * (1 - probe.e) < O.P.RP + O.P.hSkip := by
    rw [hrE]
    have : 0 < probe.a * (1 - probe.e) * probe.e := by
      have : 0 < 1 - probe.e := by linarith
      positivity
    linarith
  exact ⟨O, R1, U1, U2, probe, hP, h, F.elements, hlo, by rw [hrE]; linarith⟩

end AMAT.Props
