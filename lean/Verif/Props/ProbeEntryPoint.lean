import Verif.Props.Deflection

/-
Property C119: the recorded entry state of a released probe is the state of its two-body orbit at the entry interface.  The
code takes the entry position with the argument of periapsis of the orbiter, the velocity with that of the probe.
-/

noncomputable section

open Real

namespace AMAT.Props

/-- Position, angular momentum and eccentricity vector determine the velocity. -/
theorem velocity_unique {GM : ℝ} (hGM : 0 < GM) {R U V : V3} (hc : V3.cross R U = V3.cross R V) (h0 : V3.cross R U ≠ 0)
    (he : Spec.eccVec GM R U = Spec.eccVec GM R V) : U = V := by
  set H := V3.cross R U with hH
  have hn : 0 < V3.dot H H := by rw [← V3.norm_sq]; have := V3.norm_pos h0; positivity
  have hx : V3.cross U H = V3.cross V H := by
    unfold Spec.eccVec at he
    rw [← hc, ← hH] at he
    have hg : (1 / GM) ≠ 0 := by positivity
    have e1 := congrArg V3.x he
    have e2 := congrArg V3.y he
    have e3 := congrArg V3.z he
    simp only [V3.sub_x, V3.sub_y, V3.sub_z, V3.smul_x, V3.smul_y, V3.smul_z] at e1 e2 e3
    ext
    · exact mul_left_cancel₀ hg (by linarith)
    · exact mul_left_cancel₀ hg (by linarith)
    · exact mul_left_cancel₀ hg (by linarith)
  have back : ∀ X : V3, V3.dot X H = 0 → V3.dot H H • X = V3.cross H (V3.cross X H) := by
    intro X hX
    have : V3.cross H (V3.cross X H) = V3.dot H H • X - V3.dot X H • H := by
      ext <;> simp only [V3.cross, V3.dot, V3.sub_x, V3.sub_y, V3.sub_z, V3.smul_x, V3.smul_y, V3.smul_z] <;> ring
    rw [this, hX]; ext <;> simp
  have hU : V3.dot U H = 0 := by rw [hH]; simp only [V3.dot, V3.cross]; ring
  have hV : V3.dot V H = 0 := by rw [hc]; simp only [V3.dot, V3.cross]; ring
  have h1 : V3.dot H H • U = V3.dot H H • V := by rw [back U hU, back V hV, hx]
  have e1 := congrArg V3.x h1
  have e2 := congrArg V3.y h1
  have e3 := congrArg V3.z h1
  simp only [V3.smul_x, V3.smul_y, V3.smul_z] at e1 e2 e3
  ext
  · exact mul_left_cancel₀ hn.ne' e1
  · exact mul_left_cancel₀ hn.ne' e2
  · exact mul_left_cancel₀ hn.ne' e3

/-- The conic of a state passes through it with its velocity. -/
theorem through_state {P : Planet} {R U : V3} {el : Elements} {u w : V3} (S : StateCore P R U el u w)
    (hout : 0 ≤ V3.dot R U) : ∃ t, cPos (el.h ^ 2 / P.GM) el.e u (V3.cross w u) t = R ∧
      cVel (P.GM / el.h) el.e u (V3.cross w u) t = U := by
  obtain ⟨t, -, -, -, ht⟩ := S.on_orbit hout
  refine ⟨t, ht, ?_⟩
  obtain ⟨-, -, h1, h2, -⟩ := conic_state (e := el.e) (t := t) S.ok.gm S.ok.hpos S.ok.uu S.ok.ww S.ok.uw (S.ok.den t) rfl rfl rfl
  rw [cVel_eq] at h1 h2
  change V3.cross (cPos (el.h ^ 2 / P.GM) el.e u (V3.cross w u) t) _ = _ at h1
  change Spec.eccVec P.GM (cPos (el.h ^ 2 / P.GM) el.e u (V3.cross w u) t) _ = _ at h2
  rw [ht] at h1 h2
  refine velocity_unique S.ok.gm (by rw [h1, S.hw]) ?_ (by rw [h2, S.he])
  rw [h1]
  intro h0
  have := congrArg V3.norm h0
  rw [V3.norm_smul, V3.norm_of_dot_one S.ok.ww, V3.norm_eq_zero.mpr rfl, abs_of_pos S.ok.hpos] at this
  have := S.ok.hpos
  linarith

/-- Distance of two points at the same anomaly of two frames turned by `D`. -/
theorem turned_distance {u w up : V3} (hu : V3.dot u u = 1) (hw : V3.dot w w = 1) (huw : V3.dot u w = 0) {D r : ℝ}
    (hr : 0 ≤ r) (hup : up = cos D • u + sin D • V3.cross w u) (t : ℝ) :
    V3.norm (r • (cos t • u + sin t • V3.cross w u) - r • (cos t • up + sin t • V3.cross w up)) = 2 * r * |sin (D / 2)| := by
  obtain ⟨c1, c2⟩ := cross_unit hu hw huw
  have c4 : V3.cross w (V3.cross w u) = (-1:ℝ) • u := by
    have : V3.cross w (V3.cross w u) = V3.dot u w • w - V3.dot w w • u := by
      ext <;> simp only [V3.cross, V3.dot, V3.sub_x, V3.sub_y, V3.sub_z, V3.smul_x, V3.smul_y, V3.smul_z] <;> ring
    rw [this, hw, huw]; ext <;> simp
  have c5 : V3.cross w up = cos D • V3.cross w u + sin D • V3.cross w (V3.cross w u) := by
    rw [hup]
    ext <;> simp only [V3.cross, V3.add_x, V3.add_y, V3.add_z, V3.smul_x, V3.smul_y, V3.smul_z] <;> ring
  apply V3.norm_eq_of_sq (by positivity)
  rw [c5, c4, hup]
  generalize V3.cross w u = q at c1 c2
  have e1 : V3.dot (r • (cos t • u + sin t • q) - r • (cos t • (cos D • u + sin D • q) + sin t • (cos D • q + sin D • (-1:ℝ) • u)))
      (r • (cos t • u + sin t • q) - r • (cos t • (cos D • u + sin D • q) + sin t • (cos D • q + sin D • (-1:ℝ) • u))) =
      r ^ 2 * ((cos t - cos t * cos D + sin t * sin D) ^ 2 * V3.dot u u +
        2 * (cos t - cos t * cos D + sin t * sin D) * (sin t - cos t * sin D - sin t * cos D) * V3.dot u q +
        (sin t - cos t * sin D - sin t * cos D) ^ 2 * V3.dot q q) := by
    simp only [V3.dot, V3.add_x, V3.add_y, V3.add_z, V3.smul_x, V3.smul_y, V3.smul_z, V3.sub_x, V3.sub_y, V3.sub_z]; ring
  have h2 : cos D = 1 - 2 * sin (D / 2) ^ 2 := by
    have h3 := cos_sq' (D / 2)
    have h4 := cos_two_mul (D / 2)
    rw [show 2 * (D / 2) = D by ring] at h4
    rw [h4, h3]; ring
  have sc := sin_sq_add_cos_sq t
  have sd := sin_sq_add_cos_sq D
  rw [e1, hu, c1, c2, mul_pow, mul_pow, sq_abs]
  have e2 : (cos t - cos t * cos D + sin t * sin D) ^ 2 + (sin t - cos t * sin D - sin t * cos D) ^ 2 = 2 - 2 * cos D := by
    linear_combination (1 - 2 * cos D + cos D ^ 2 + sin D ^ 2) * sc + sd
  have e3 : (4:ℝ) * sin (D / 2) ^ 2 = 2 - 2 * cos D := by rw [h2]; ring
  linear_combination r ^ 2 * e2 - r ^ 2 * e3

/-- The entry record holds the position and velocity computed at the entry anomaly. -/
theorem probeEntry_inv {O : Orbiter} {self probe : Elements} {pe : Orbiter.ProbeEntry}
    (h : O.probeEntry self probe = some pe) : ∃ t, O.probeEntryAnomaly probe = some t ∧
      posProbe O.P.GM self probe t = some pe.R ∧ velProbe O.P.GM self probe t = some pe.U := by
  unfold Orbiter.probeEntry at h
  simp only [bind, pure, Option.bind_eq_some_iff] at h
  obtain ⟨t, ht, R, hR, ru, -, U, hU, vu, -, x, -, g, -, q, -, au, -, ga, -, hd, -, he⟩ := h
  have hpe := Option.some.inj he
  refine ⟨t, ht, ?_, ?_⟩
  · rw [hR, ← hpe]
  · rw [hU, ← hpe]

/-- C119: the recorded entry state against the probe's own orbit.  `X`, `W` is the two-body orbit on which the burn leaves
the probe (`X t1 = R1`, `W t1 = U2`) and `D` the angle from the periapsis of the orbiter to that of the probe, which the burn
turns: `e cos (th - D) = h² / (GM |R1|) - 1` at the point of release.  If the orbit crosses the interface, `X t` at the computed
entry anomaly is the inbound crossing.  The recorded position is `2 r |sin (D / 2)|` away from it, the recorded speed is right,
and the recorded flight-path angle `gammaAtm` is the one of the orbit less `D` (up to the factor 1.0000001).

Partial: full claim is `pe.R = X t`, `pe.U = W t`, which is false (`C119_quarter_release`). -/
theorem C119_entry_point_partial (name : String) (O : Orbiter) (hP : Planet.init name = .ok O.P) (th dV : ℝ) (R1 U1 U2 : V3)
    (h : Spec.Release O th dV R1 U1 U2) : ∃ self probe, O.orbit = some self ∧ O.probeElements th dV = some probe ∧
    ∃ (X W : ℝ → V3) (t1 D : ℝ), (∀ t, Spec.TwoBodyAt O.P.GM (Spec.angMom R1 U2) X W t) ∧ X t1 = R1 ∧ W t1 = U2 ∧
      D = probe.o.omega - self.o.omega ∧
      V3.dot (Spec.eccVec O.P.GM (Spec.exitPos O) (Spec.exitVel O)) (Spec.eccVec O.P.GM R1 U2) =
        V3.norm (Spec.eccVec O.P.GM (Spec.exitPos O) (Spec.exitVel O)) * V3.norm (Spec.eccVec O.P.GM R1 U2) * cos D ∧
      V3.norm (Spec.eccVec O.P.GM R1 U2) * cos (th - D) = Spec.angMom R1 U2 ^ 2 / (O.P.GM * V3.norm R1) - 1 ∧
      ∀ r, r = O.P.RP + O.P.hSkip → probe.a * (1 - probe.e) < r → r ≤ probe.a * (1 + probe.e) →
        ∃ t, O.probeEntryAnomaly probe = some t ∧ V3.norm (X t) = r ∧ V3.dot (X t) (W t) ≤ 0 ∧
          ∀ pe, O.probeEntry self probe = some pe →
            V3.norm (pe.R - X t) = 2 * r * |sin (D / 2)| ∧ (pe.R = X t ↔ cos D = 1) ∧
            V3.norm pe.U = V3.norm (W t) ∧
            sin pe.gammaAtm = sin (-arccos (Spec.angMom R1 U2 / (r * V3.norm (W t)) / 1.0000001) - D) := by
  obtain ⟨el, probe, u, w, up, F⟩ := release_facts hP h
  have Kp := F.S.ok
  have hk := kap_gt
  obtain ⟨_, hRP, hGM, _⟩ := C01_planet_consistent name O.P hP
  obtain ⟨t1, ht1, ht1'⟩ := through_state F.S F.out.le
  obtain ⟨D, hD⟩ : ∃ D, D = probe.o.omega - el.o.omega := ⟨_, rfl⟩
  have hturn := F.turn
  rw [← hD] at hturn
  obtain ⟨c1, c2⟩ := cross_unit F.K.uu F.K.ww F.K.uw
  have hh : Spec.angMom R1 U2 = probe.h := F.S.hh.symm
  have hee : V3.norm (Spec.eccVec O.P.GM R1 U2) = probe.e := by
    rw [F.S.he, V3.norm_smul, V3.norm_of_dot_one Kp.uu, abs_of_pos F.S.epos, mul_one]
  have hr1 : 0 < V3.norm R1 := F.S.r0
  rw [hh, hee]
  refine ⟨el, probe, F.orbit, F.elements, _, _, t1, D, fun t => conic_twoBody Kp.gm Kp.hpos Kp.uu Kp.ww Kp.uw (Kp.den t),
    ht1, ht1', hD, ?_, ?_, ?_⟩
  · obtain ⟨c, hc, hce⟩ := F.apse
    rw [hce, F.S.he, V3.norm_smul, abs_of_pos hc, V3.norm_of_dot_one F.K.uu, V3.dot_smul_left, V3.dot_smul_right, hturn]
    generalize V3.cross w u = q at c1 c2
    have : V3.dot u (cos D • u + sin D • q) = cos D * V3.dot u u + sin D * V3.dot u q := by
      simp only [V3.dot, V3.add_x, V3.add_y, V3.add_z, V3.smul_x, V3.smul_y, V3.smul_z]; ring
    rw [this, F.K.uu, c2]; ring
  · have hs := F.S.cosnu
    have hdu : V3.dot R1 up = V3.norm R1 * cos (th - D) := by
      have h1 := F.R1
      rw [← F.rad] at h1
      generalize V3.norm R1 = ρ at h1
      rw [h1, hturn, cos_sub]
      generalize V3.cross w u = q at c1 c2
      have : V3.dot (ρ • (cos th • u + sin th • q)) (cos D • u + sin D • q) =
          ρ * (cos th * cos D * V3.dot u u + (cos th * sin D + sin th * cos D) * V3.dot u q + sin th * sin D * V3.dot q q) := by
        simp only [V3.dot, V3.add_x, V3.add_y, V3.add_z, V3.smul_x, V3.smul_y, V3.smul_z]; ring
      rw [this, F.K.uu, c1, c2]; ring
    rw [hdu] at hs
    have : probe.e * cos (th - D) = (probe.h ^ 2 / O.P.GM - V3.norm R1) / V3.norm R1 := by
      rw [← hs]; field_simp
    rw [this]; field_simp
  · intro r hr hlo hhi
    obtain ⟨el', probe', q1, q2, q3⟩ := C70_entry_interface_partial name O hP h.r _ _ rfl rfl h.bound h.tilted h.ecc h.peri th dV
      R1 U1 U2 h.pos h.vel h.forward h.after h.stays
    rw [F.orbit] at q1
    obtain rfl := Option.some.inj q1
    rw [F.elements] at q2
    obtain rfl := Option.some.inj q2
    rw [← hr] at q3
    obtain ⟨t, Rp, a1, a2, ht, hRp, hn, -⟩ := q3 hlo hhi
    have hr0 : 0 < r := lt_trans (mul_pos Kp.apos (by linarith [Kp.e1])) hlo
    obtain ⟨v, hv⟩ : ∃ v, v = EllipseOK.spd O.P.GM probe t := ⟨_, rfl⟩
    obtain ⟨ρ, hρ⟩ : ∃ ρ, ρ = EllipseOK.rad O.P.GM probe t := ⟨_, rfl⟩
    obtain ⟨R, U, hR, hU, hRn, hUn, hRe, hdot, -⟩ := deflect_state F t ρ v D hρ hv hD
    have hRR : R = Rp := by rw [hR] at hRp; exact Option.some.inj hRp
    have hρr : ρ = r := by rw [← hRn, hRR, hn]
    rw [hρr] at hRe hdot hρ
    have hv0 : 0 < v := by rw [hv]; exact Kp.spd_pos t
    obtain ⟨-, b1, -, -, b2, b3, -⟩ := conic_state (e := probe.e) (t := t) Kp.gm Kp.hpos Kp.uu Kp.ww Kp.uw (Kp.den t) rfl rfl rfl
    rw [cVel_eq] at b2 b3
    set X := cPos (probe.h ^ 2 / O.P.GM) probe.e up (V3.cross w up) t with hX
    set W := cVel (O.P.GM / probe.h) probe.e up (V3.cross w up) t with hW
    change V3.norm X = EllipseOK.rad O.P.GM probe t at b1
    change V3.dot X W = EllipseOK.rad O.P.GM probe t * _ at b3
    rw [← hρ] at b1 b3
    have hXe : X = r • (cos t • up + sin t • V3.cross w up) := by
      rw [hρ]; rfl
    have hst : sin t ≤ 0 := by
      have := sin_nonneg_of_nonneg_of_le_pi (x := t - π) (by linarith) (by linarith)
      rw [sin_sub_pi] at this
      linarith
    have hWn : V3.norm W = v := by
      apply V3.norm_eq_of_sq hv0.le
      rw [b2, hv]
      unfold EllipseOK.spd
      rw [sq_sqrt (by rw [Kp.spd_sq]; positivity), Kp.spd_sq]
    refine ⟨t, ht, b1, ?_, fun pe hpe => ?_⟩
    · rw [b3]
      have : 0 ≤ r * (O.P.GM / probe.h * probe.e) * -sin t := by
        have := Kp.hpos
        have := F.S.epos
        have h2 : 0 ≤ -sin t := by linarith
        positivity
      linarith
    · obtain ⟨t', ht', hR', hU'⟩ := probeEntry_inv hpe
      rw [ht] at ht'
      obtain rfl := Option.some.inj ht'
      rw [hR] at hR'
      rw [hU] at hU'
      have hpR := Option.some.inj hR'
      have hpU := Option.some.inj hU'
      have hdist : V3.norm (pe.R - X) = 2 * r * |sin (D / 2)| := by
        rw [← hpR, hRe, hXe]
        exact turned_distance F.K.uu F.K.ww F.K.uw hr0.le hturn t
      have hcD : cos D = 1 - 2 * sin (D / 2) ^ 2 := by
        have h3 := cos_sq' (D / 2)
        have h4 := cos_two_mul (D / 2)
        rw [show 2 * (D / 2) = D by ring] at h4
        rw [h4, h3]; ring
      refine ⟨hdist, ?_, by rw [← hpU, hUn, hWn], ?_⟩
      · constructor
        · intro h0
          have h1 : 2 * r * |sin (D / 2)| = 0 := by
            have h0' : pe.R = X := h0
            rw [← hdist, h0']
            exact V3.norm_eq_zero.mpr (by ext <;> simp)
          have h2 : |sin (D / 2)| = 0 := (mul_eq_zero.mp h1).resolve_left (by positivity)
          rw [hcD, abs_eq_zero.mp h2]; norm_num
        · intro h0
          have h1 : sin (D / 2) = 0 := by
            have : sin (D / 2) ^ 2 = 0 := by linarith
            exact pow_eq_zero_iff two_ne_zero |>.mp this
          rw [h1, abs_zero, mul_zero] at hdist
          have h2 := V3.norm_eq_zero.mp hdist
          have e1 := congrArg V3.x h2
          have e2 := congrArg V3.y h2
          have e3 := congrArg V3.z h2
          simp only [V3.sub_x, V3.sub_y, V3.sub_z, V3.zero_x, V3.zero_y, V3.zero_z] at e1 e2 e3
          ext <;> linarith
      · obtain ⟨g1, -, -⟩ := C71_atm_angle_is_inertial O el probe pe hpe
        rw [← hpR, ← hpU, hRn, hUn, hρr, hdot] at g1
        rw [hWn]
        change _ = sin (-arccos (probe.h / (r * v) / kap) - D)
        obtain ⟨p1, p2⟩ := Kp.ratio t
        rw [← hρ, ← hv] at p1 p2
        set x := probe.h / (r * v) / kap with hx
        have hx0 : 0 < x := by rw [hx]; positivity
        have hx1 : x ≤ 1 := by rw [hx, div_le_one (by linarith)]; linarith
        rw [sin_sub, sin_neg, cos_neg, sin_arccos, cos_arccos (by linarith) hx1]
        have hhx : probe.h / r / kap = v * x := by rw [hx]; field_simp
        rw [hhx] at g1
        have : r * v * sin pe.gammaAtm = r * v * (-√(1 - x ^ 2) * cos D - x * sin D) := by rw [← g1]; ring
        exact mul_left_cancel₀ (by positivity) this

/-- C119, finding: releasing the probe a quarter orbit after periapsis with a burn that halves its speed, the recorded entry
point is more than three quarters of the interface radius away from the entry point of the probe's orbit. -/
theorem C119_quarter_release (name : String) (O : Orbiter) (hP : Planet.init name = .ok O.P) (R1 U1 U2 : V3)
    (h : Spec.Release O (π / 2) (-(V3.norm U1 / 2)) R1 U1 U2) : ∃ self probe, O.orbit = some self ∧
      O.probeElements (π / 2) (-(V3.norm U1 / 2)) = some probe ∧ ∃ (X W : ℝ → V3) (t1 : ℝ),
      (∀ t, Spec.TwoBodyAt O.P.GM (Spec.angMom R1 U2) X W t) ∧ X t1 = R1 ∧ W t1 = U2 ∧
      ∀ r, r = O.P.RP + O.P.hSkip → probe.a * (1 - probe.e) < r → r ≤ probe.a * (1 + probe.e) →
        ∃ t, O.probeEntryAnomaly probe = some t ∧ V3.norm (X t) = r ∧ V3.dot (X t) (W t) ≤ 0 ∧
          ∀ pe, O.probeEntry self probe = some pe → 3 / 4 * r < V3.norm (pe.R - X t) := by
  have hU1p : 0 < V3.norm U1 := by have := h.forward; linarith
  obtain ⟨_, _, hGM, _⟩ := C01_planet_consistent name O.P hP
  obtain ⟨el, probe, X, W, u, F⟩ := release_facts hP h
  obtain ⟨el', probe', o1, o2, X, W, t1, D, x1, x2, x3, hD, -, -, x4⟩ :=
    C119_entry_point_partial name O hP _ _ R1 U1 U2 h
  rw [F.orbit] at o1
  obtain rfl := Option.some.inj o1
  rw [F.elements] at o2
  obtain rfl := Option.some.inj o2
  obtain ⟨hsin, -, -⟩ := quarter_turn hGM F hU1p hD
  refine ⟨el, probe, F.orbit, F.elements, X, W, t1, x1, x2, x3, fun r hr hlo hhi => ?_⟩
  obtain ⟨t, ht, y1, y2, y3⟩ := x4 r hr hlo hhi
  refine ⟨t, ht, y1, y2, fun pe hpe => ?_⟩
  obtain ⟨z1, -⟩ := y3 pe hpe
  have hr0 : 0 < r := lt_trans (mul_pos F.S.ok.apos (by linarith [F.S.ok.e1])) hlo
  have h1 : sin D = 2 * sin (D / 2) * cos (D / 2) := by
    rw [← sin_two_mul]; congr 1; ring
  have h2 : 3 / 4 < |sin D| := by rw [abs_of_neg (by linarith)]; linarith
  have h3 : |sin D| ≤ 2 * |sin (D / 2)| := by
    rw [h1, abs_mul, abs_mul, abs_of_pos (by norm_num : (0:ℝ) < 2)]
    exact mul_le_of_le_one_right (by positivity) (abs_cos_le_one _)
  rw [z1]
  have h4 : 3 / 4 * r < 2 * |sin (D / 2)| * r := mul_lt_mul_of_pos_right (by linarith) hr0
  linarith

/-- A state is not farther out than the apoapsis of its orbit. -/
theorem apoapsis_bound {P : Planet} {R U : V3} {el : Elements} {u w : V3} (S : StateCore P R U el u w) :
    V3.norm R ≤ el.a * (1 + el.e) := by
  have hg := S.ok.gm
  have he1 := S.ok.e1
  have hs := S.cosnu
  have h1 := V3.abs_dot_le R u
  rw [V3.norm_of_dot_one S.ok.uu, mul_one] at h1
  have h2 := (abs_le.mp h1).1
  have h3 : el.e * -V3.norm R ≤ el.e * V3.dot R u := mul_le_mul_of_nonneg_left h2 S.epos.le
  have hpa : el.h ^ 2 / P.GM = el.a * (1 - el.e) * (1 + el.e) := by
    rw [S.ok.hsq]; field_simp; ring
  rw [hs, hpa] at h3
  have h4 : V3.norm R * (1 - el.e) ≤ el.a * (1 + el.e) * (1 - el.e) := by linarith
  exact le_of_mul_le_mul_right h4 (by linarith)

/-- Case for `C119_entry_point_partial` and `C119_quarter_release`: a release from the orbit of `mars_exit` a quarter orbit after
periapsis.  The probe crosses the interface and its entry record is complete. -/
theorem mars_quarter_release : ∃ (O : Orbiter) (R1 U1 U2 : V3) (self probe : Elements) (pe : Orbiter.ProbeEntry),
    Planet.init "MARS" = .ok O.P ∧ Spec.Release O (π / 2) (-(V3.norm U1 / 2)) R1 U1 U2 ∧ O.orbit = some self ∧
    O.probeElements (π / 2) (-(V3.norm U1 / 2)) = some probe ∧ probe.a * (1 - probe.e) < O.P.RP + O.P.hSkip ∧
    O.P.RP + O.P.hSkip ≤ probe.a * (1 + probe.e) ∧ O.probeEntry self probe = some pe ∧ pe.R.x < 0 := by
  obtain ⟨O, R1, U1, U2, hP, h, hper, hRe, hUe⟩ := mars_release (π / 2)
  have hRPv : O.P.RP = 3389.5e3 := by simp [Planet.init] at hP; rw [← hP]; rfl
  have hGMv : O.P.GM = 4.282837e13 := by simp [Planet.init] at hP; rw [← hP]; rfl
  have hOM : O.P.OMEGA = 7.088253e-5 := by simp [Planet.init] at hP; rw [← hP]; rfl
  have hSk : O.P.hSkip = 120e3 := by simp [Planet.init] at hP; rw [← hP]; rfl
  have hrE : O.P.RP + O.P.hSkip = 3509500 := by rw [hRPv, hSk]; norm_num
  obtain ⟨_, hRP, hGM, _⟩ := C01_planet_consistent "MARS" O.P hP
  obtain ⟨el, probe, u, w, up, F⟩ := release_facts hP h
  have hper1 : el.a * (1 - el.e) = 3789500 ∧ 3509500 ≤ el.a * (1 + el.e) := by
    obtain ⟨coast, u, w, hc, S, -⟩ := coast_core hGM h.r rfl rfl h.bound h.tilted h.ecc
    obtain ⟨-, el', hO, -, -, a1, a2⟩ := prm_core S.ok hRP hc h.peri
    rw [F.orbit] at hO
    rw [Option.some.inj hO, a1, a2, hRPv, hper]
    refine ⟨by norm_num, ?_⟩
    have hn : V3.norm (Spec.exitPos O) = 3509500 := by
      rw [hRe]; apply V3.norm_eq_of_sq (by norm_num); simp only [V3.dot]; norm_num
    rw [← hn]
    exact apoapsis_bound S
  obtain ⟨hper1, hapo1⟩ := hper1
  have hU1p : 0 < V3.norm U1 := by have := h.forward; linarith
  have hk := kap_gt
  have Kp := F.S.ok
  have he0 := F.S.epos
  have he1 := Kp.e1
  have ha0 := Kp.apos
  -- the angular momenta
  have hel : el.h ^ 2 / O.P.GM = 3789500 * (1 + el.e) := by
    rw [F.K.hsq, ← hper1]; field_simp; ring
  have hpp : probe.h ^ 2 / O.P.GM < 1894750 := by
    have h1 : probe.h ^ 2 < el.h ^ 2 / 4 := by
      have h2 : probe.h = 1 / 2 * (el.h / kap) := by rw [F.h]; congr 1; field_simp; norm_num
      have h3 : el.h / kap < el.h := div_lt_self F.K.hpos hk
      have h4 : 0 < el.h / kap := div_pos F.K.hpos (by linarith)
      rw [h2]; nlinarith
    have h5 : probe.h ^ 2 / O.P.GM < el.h ^ 2 / O.P.GM / 4 := by
      rw [div_div, div_lt_div_iff₀ hGM (by positivity)]
      nlinarith
    have := F.K.e1
    rw [hel] at h5
    linarith
  have hpa : probe.h ^ 2 / O.P.GM = probe.a * (1 - probe.e) * (1 + probe.e) := by
    rw [Kp.hsq]; field_simp; ring
  have hR1n : 3600000 ≤ V3.norm R1 := by
    have h1 : V3.norm R1 = 3789500 * (1 + el.e) := by
      rw [F.rad, ← hel]; unfold EllipseOK.rad; rw [cos_pi_div_two, mul_zero, add_zero, div_one]
    have h2 : 3509500 * (1 - el.e) ≤ el.a * (1 + el.e) * (1 - el.e) :=
      mul_le_mul_of_nonneg_right hapo1 (by linarith [F.K.e1])
    have h3 : el.a * (1 + el.e) * (1 - el.e) = 3789500 * (1 + el.e) := by rw [← hper1]; ring
    rw [h1]
    linarith
  have hlo : probe.a * (1 - probe.e) < O.P.RP + O.P.hSkip := by
    rw [hrE]
    have : 0 < probe.a * (1 - probe.e) * probe.e := by
      have : 0 < 1 - probe.e := by linarith
      positivity
    linarith
  have hap : V3.norm R1 ≤ probe.a * (1 + probe.e) := apoapsis_bound F.S
  have hhi : O.P.RP + O.P.hSkip ≤ probe.a * (1 + probe.e) := by rw [hrE]; linarith
  have hux : u.y = 0 ∧ u.z = 0 ∧ u.x = 1 := by
    obtain ⟨c, hc, hce⟩ := F.apse
    have hn : V3.norm (⟨3509500, 0, 0⟩ : V3) = 3509500 := by
      apply V3.norm_eq_of_sq (by norm_num); simp only [V3.dot]; norm_num
    rw [hRe, hUe] at hce
    unfold Spec.eccVec at hce
    rw [triple_id, hn, hGMv] at hce
    have e1 := congrArg V3.x hce
    have e2 := congrArg V3.y hce
    have e3 := congrArg V3.z hce
    simp only [V3.sub_x, V3.sub_y, V3.sub_z, V3.smul_x, V3.smul_y, V3.smul_z, V3.dot] at e1 e2 e3
    norm_num at e1 e2 e3
    have hy := e2.resolve_left hc.ne'
    have hz := e3.resolve_left hc.ne'
    refine ⟨hy, hz, ?_⟩
    have h1 := F.K.uu
    simp only [V3.dot, hy, hz] at h1
    have h2 : 0 < c * u.x := by rw [← e1]; norm_num
    have h3 : 0 < u.x := pos_of_mul_pos_right h2 hc.le
    nlinarith only [h1, h3]
  obtain ⟨huy, huz, hux1⟩ := hux
  obtain ⟨self', probe', o1, o2, o3⟩ := C70_entry_interface_partial "MARS" O hP h.r _ _ rfl rfl h.bound h.tilted h.ecc h.peri
    (π / 2) _ R1 U1 U2 h.pos h.vel h.forward h.after h.stays
  rw [F.orbit] at o1; obtain rfl := Option.some.inj o1
  rw [F.elements] at o2; obtain rfl := Option.some.inj o2
  obtain ⟨t, Rp, t1, t2, ht, hRp, hRpn, -⟩ := o3 hlo hhi
  have hRpx : Rp.x < 0 := by
    obtain ⟨R, U, hR, -, hRn, -, hRe', -⟩ := deflect_state F t _ _ _ rfl rfl rfl
    rw [hR] at hRp
    obtain rfl := Option.some.inj hRp
    rw [hRpn, hrE] at hRn
    rw [← hRn] at hRe'
    rw [hRe']
    simp only [V3.smul_x, V3.add_x, V3.cross, hux1, huy, huz]
    have hct : cos t < 0 := by
      by_contra hn
      have hn := not_lt.mp hn
      unfold EllipseOK.rad at hRn
      rw [eq_div_iff (Kp.den t).ne'] at hRn
      have := mul_nonneg he0.le hn
      linarith only [hRn, hpp, this]
    linarith only [hct]
  obtain ⟨self', probe', o1, o2, o3⟩ := C70_entry_state_partial "MARS" O hP h.r _ _ rfl rfl h.bound h.tilted h.ecc h.peri
    (π / 2) _ R1 U1 U2 h.pos h.vel h.forward h.after h.stays
  rw [F.orbit] at o1; obtain rfl := Option.some.inj o1
  rw [F.elements] at o2; obtain rfl := Option.some.inj o2
  obtain ⟨pe, hpe, hpR, -⟩ := o3 t Rp hlo hhi ht hRp hRpx.ne (by
    rw [hrE, hOM, hGMv]
    have h1 : 1800000 < probe.a := by nlinarith only [hap, hR1n, ha0, he1]
    have h2 : 1 / probe.a < 1 / 1800000 := one_div_lt_one_div_of_lt (by norm_num) h1
    norm_num at h2 ⊢
    linarith only [h2])
  exact ⟨O, R1, U1, U2, el, probe, pe, hP, h, F.orbit, F.elements, hlo, hhi, hpe, by rw [hpR]; exact hRpx⟩

end AMAT.Props
