import Verif.Props.ProbeEscape
import Verif.Props.ProbeProps

/-
Property C117: the orbiter deflection manoeuvre after the release of a probe.  Orbiter and probe share the probe orbit until the
orbiter is deflected.  The code takes the position on that orbit with the argument of periapsis of the orbiter and the velocity
with that of the probe.  The energy after the burn is right; the angular momentum is not.
-/

noncomputable section

open Real

namespace AMAT.Spec

/-- Inertial position and velocity of the vehicle when it leaves the atmosphere. -/
def exitPos (O : Orbiter) : V3 := pos O.s.r O.s.theta O.s.phi

def exitVel (O : Orbiter) : V3 :=
  vel O.s.theta O.s.phi O.s.v O.s.psi O.s.g + V3.cross (spin O.P.OMEGA) (exitPos O)

/-- A probe is released at anomaly `th` with a burn `dV` along the velocity: exit on a bound orbit that is neither circular nor
equatorial, position `R1` and velocity `U1` before and `U2` after the burn, which does not reverse the velocity and leaves a
bound orbit. -/
structure Release (O : Orbiter) (th dV : ℝ) (R1 U1 U2 : V3) : Prop where
  r : 0 < O.s.r
  bound : energy O.P.GM (exitPos O) (exitVel O) < 0
  tilted : (V3.cross (exitPos O) (exitVel O)).x ≠ 0 ∨ (V3.cross (exitPos O) (exitVel O)).y ≠ 0
  ecc : eccVec O.P.GM (exitPos O) (exitVel O) ≠ 0
  peri : 0 < O.P.RP + O.periAltKm * 1000
  pos : O.pos th = some R1
  vel : O.vel th = some U1
  forward : -V3.norm U1 < dV
  after : U2 = U1 + (dV / V3.norm U1) • U1
  stays : energy O.P.GM R1 U2 < 0

end AMAT.Spec

namespace AMAT.Props

/-- What is known of the orbits of orbiter and probe after a release. -/
structure ReleaseFacts (O : Orbiter) (th dV : ℝ) (R1 U1 U2 : V3) (el probe : Elements) (u w up : V3) : Prop where
  K : EllipseOK O.P.GM el u w
  S : StateCore O.P R1 U2 probe up w
  orbit : O.orbit = some el
  elements : O.probeElements th dV = some probe
  tilted : w.x ≠ 0 ∨ w.y ≠ 0
  turn : up = cos (probe.o.omega - el.o.omega) • u + sin (probe.o.omega - el.o.omega) • V3.cross w u
  out : 0 < V3.dot R1 U2
  h : probe.h = (1 + dV / V3.norm U1) * (el.h / kap)
  rad : V3.norm R1 = EllipseOK.rad O.P.GM el th
  R1 : R1 = EllipseOK.rad O.P.GM el th • (cos th • u + sin th • V3.cross w u)
  orient : probe.o.i = el.o.i ∧ probe.o.OMEGA = el.o.OMEGA
  apse : ∃ c : ℝ, 0 < c ∧ Spec.eccVec O.P.GM (Spec.exitPos O) (Spec.exitVel O) = c • u
  pos : ∀ t, posProbe O.P.GM el probe t = some (EllipseOK.rad O.P.GM probe t • (cos t • u + sin t • V3.cross w u))

theorem release_facts {name : String} {O : Orbiter} (hP : Planet.init name = .ok O.P) {th dV : ℝ} {R1 U1 U2 : V3}
    (h : Spec.Release O th dV R1 U1 U2) : ∃ el probe u w up, ReleaseFacts O th dV R1 U1 U2 el probe u w up := by
  obtain ⟨_, hRP, hGM, _⟩ := C01_planet_consistent name O.P hP
  obtain ⟨coast, u, w, hc, S, hRn⟩ := coast_core hGM h.r rfl rfl h.bound h.tilted h.ecc
  obtain ⟨-, el, hO, K, ho, -, -⟩ := prm_core S.ok hRP hc h.peri
  obtain ⟨probe, up, wp, hpr, Sp, rfl, hd, hph, hn, hf, hpos⟩ :=
    probe_core S K ho hO h.tilted h.pos h.vel h.forward h.after h.stays
  have hch := S.ok.hpos
  have hor : probe.o.i = coast.o.i ∧ probe.o.OMEGA = coast.o.OMEGA := by
    have h2 := Sp.ho
    have hph0 := Sp.ok.hpos
    have : V3.cross R1 U2 = (probe.h / coast.h) • V3.cross (Spec.exitPos O) (Spec.exitVel O) := by
      have := S.hw
      change V3.cross (Spec.exitPos O) (Spec.exitVel O) = _ at this
      rw [this, Sp.hw, V3.smul_smul]; congr 1; field_simp
    rw [this] at h2
    exact orient_dir (by positivity) S.ho h2
  rw [← ho] at hor
  have hwxy : wp.x ≠ 0 ∨ wp.y ≠ 0 := by
    have h1 := h.tilted
    have h2 := S.hw
    change V3.cross (Spec.exitPos O) (Spec.exitVel O) = _ at h2
    rw [h2] at h1
    rcases h1 with h | h
    · left; exact right_ne_zero_of_mul h
    · right; exact right_ne_zero_of_mul h
  refine ⟨el, probe, u, wp, up, K, Sp, hO, hpr, hwxy, ?_, hd, hph, hn, hf, hor, ⟨_, S.epos, S.he⟩, hpos⟩
  have h1 := K.unit (probe.o.omega - el.o.omega)
  have h2 := Sp.ok.unit 0
  rw [cos_zero, sin_zero, zero_add] at h2
  have e0 : (1:ℝ) • up + (0:ℝ) • V3.cross wp up = up := by ext <;> simp
  rw [e0] at h2
  rw [sub_add_cancel] at h1
  rw [← h1, ← h2]
  unfold conicUnit
  rw [hor.1, hor.2]

/-- Products of vectors in the orbital plane given by their angles. -/
theorem plane_products {u w up : V3} (hu : V3.dot u u = 1) (hw : V3.dot w w = 1) (huw : V3.dot u w = 0) {D : ℝ}
    (hup : up = cos D • u + sin D • V3.cross w u) (r a b t : ℝ) :
    V3.dot (r • (cos t • u + sin t • V3.cross w u))
      (a • (cos t • up + sin t • V3.cross w up) + b • ((-sin t) • up + cos t • V3.cross w up)) =
      r * (a * cos D - b * sin D) ∧
    V3.cross (r • (cos t • u + sin t • V3.cross w u))
      (a • (cos t • up + sin t • V3.cross w up) + b • ((-sin t) • up + cos t • V3.cross w up)) =
      (r * (a * sin D + b * cos D)) • w := by
  obtain ⟨c1, c2⟩ := cross_unit hu hw huw
  have c3 : V3.cross u (V3.cross w u) = w := by
    have : V3.cross u (V3.cross w u) = V3.dot u u • w - V3.dot u w • u := by
      ext <;> simp only [V3.cross, V3.dot, V3.sub_x, V3.sub_y, V3.sub_z, V3.smul_x, V3.smul_y, V3.smul_z] <;> ring
    rw [this, hu, huw]; ext <;> simp
  have c4 : V3.cross w (V3.cross w u) = (-1:ℝ) • u := by
    have : V3.cross w (V3.cross w u) = V3.dot u w • w - V3.dot w w • u := by
      ext <;> simp only [V3.cross, V3.dot, V3.sub_x, V3.sub_y, V3.sub_z, V3.smul_x, V3.smul_y, V3.smul_z] <;> ring
    rw [this, hw, huw]; ext <;> simp
  have c5 : V3.cross w up = cos D • V3.cross w u + (-sin D) • u := by
    have : V3.cross w up = cos D • V3.cross w u + sin D • V3.cross w (V3.cross w u) := by
      rw [hup]
      ext <;> simp only [V3.cross, V3.add_x, V3.add_y, V3.add_z, V3.smul_x, V3.smul_y, V3.smul_z] <;> ring
    rw [this, c4, V3.smul_smul]
    congr 2
    ring
  rw [c5, hup]
  have sc := sin_sq_add_cos_sq t
  generalize V3.cross w u = q at *
  constructor
  · have : V3.dot (r • (cos t • u + sin t • q)) (a • (cos t • (cos D • u + sin D • q) + sin t • (cos D • q + (-sin D) • u)) +
        b • ((-sin t) • (cos D • u + sin D • q) + cos t • (cos D • q + (-sin D) • u))) =
        r * ((cos t * (a * (cos t * cos D - sin t * sin D) + b * (-sin t * cos D - cos t * sin D))) * V3.dot u u +
          (cos t * (a * (cos t * sin D + sin t * cos D) + b * (-sin t * sin D + cos t * cos D)) +
            sin t * (a * (cos t * cos D - sin t * sin D) + b * (-sin t * cos D - cos t * sin D))) * V3.dot u q +
          (sin t * (a * (cos t * sin D + sin t * cos D) + b * (-sin t * sin D + cos t * cos D))) * V3.dot q q) := by
      simp only [V3.dot, V3.add_x, V3.add_y, V3.add_z, V3.smul_x, V3.smul_y, V3.smul_z]; ring
    rw [this, hu, c1, c2]
    linear_combination (r * (a * cos D - b * sin D)) * sc
  · have : V3.cross (r • (cos t • u + sin t • q)) (a • (cos t • (cos D • u + sin D • q) + sin t • (cos D • q + (-sin D) • u)) +
        b • ((-sin t) • (cos D • u + sin D • q) + cos t • (cos D • q + (-sin D) • u))) =
        (r * (cos t * (a * (cos t * sin D + sin t * cos D) + b * (-sin t * sin D + cos t * cos D)) -
          sin t * (a * (cos t * cos D - sin t * sin D) + b * (-sin t * cos D - cos t * sin D)))) • V3.cross u q := by
      ext <;> simp only [V3.cross, V3.add_x, V3.add_y, V3.add_z, V3.smul_x, V3.smul_y, V3.smul_z] <;> ring
    rw [this, c3]
    congr 1
    linear_combination (r * (a * sin D + b * cos D)) * sc

/-- The state from which the code deflects the orbiter. -/
theorem deflect_state {O : Orbiter} {th dV : ℝ} {R1 U1 U2 : V3} {el probe : Elements} {u w up : V3}
    (F : ReleaseFacts O th dV R1 U1 U2 el probe u w up) (t : ℝ) (r v D : ℝ) (hr : r = EllipseOK.rad O.P.GM probe t)
    (hv : v = EllipseOK.spd O.P.GM probe t) (hD : D = probe.o.omega - el.o.omega) :
    ∃ R U, posProbe O.P.GM el probe t = some R ∧ velProbe O.P.GM el probe t = some U ∧ V3.norm R = r ∧ V3.norm U = v ∧
      R = r • (cos t • u + sin t • V3.cross w u) ∧
      V3.dot R U = r * (-(v * sqrt (1 - (probe.h / (r * v) / kap) ^ 2)) * cos D - probe.h / r / kap * sin D) ∧
      V3.cross R U = (r * (-(v * sqrt (1 - (probe.h / (r * v) / kap) ^ 2)) * sin D + probe.h / r / kap * cos D)) • w := by
  have Kp := F.S.ok
  have hr0 : 0 < r := by rw [hr]; exact Kp.rad_pos t
  have hv0 : 0 < v := by rw [hv]; exact Kp.spd_pos t
  have hk := kap_gt
  obtain ⟨q1, q2⟩ := Kp.ratio t
  rw [← hr, ← hv] at q1 q2
  set x := probe.h / (r * v) / kap with hx
  have hx0 : 0 < x := by rw [hx]; positivity
  have hx1 : x ≤ 1 := by rw [hx, div_le_one (by linarith)]; linarith
  have hR := F.pos t
  rw [← hr] at hR
  have hRn : V3.norm (r • (cos t • u + sin t • V3.cross w u)) = r := by
    have h1 := EllipseOK.norm_polar F.K.uu F.K.ww F.K.uw r 0 t
    have : r • (cos t • u + sin t • V3.cross w u) + (0:ℝ) • ((-sin t) • u + cos t • V3.cross w u) =
        r • (cos t • u + sin t • V3.cross w u) := by ext <;> simp
    rw [this] at h1
    rw [h1, zero_pow two_ne_zero, add_zero, sqrt_sq hr0.le]
  have hsa := Kp.speedAngle_eq t
  rw [← hr, ← hv, ← hx] at hsa
  have hvel : velProbe O.P.GM el probe t = some (conicVel (v * sin (-1 * arccos x)) (v * cos (-1 * arccos x)) probe.o t) := by
    unfold velProbe
    rw [hR]
    simp only [bind, Option.bind, pure]
    rw [hRn, hsa]
  rw [neg_one_mul, sin_neg, cos_neg, sin_arccos, cos_arccos (by linarith) hx1, Kp.vel] at hvel
  have hvx : v * x = probe.h / r / kap := by rw [hx]; field_simp
  obtain ⟨p1, p2⟩ := plane_products F.K.uu F.K.ww F.K.uw F.turn r (v * -sqrt (1 - x ^ 2)) (v * x) t
  rw [← hD] at p1 p2
  refine ⟨_, _, hR, hvel, hRn, ?_, rfl, ?_, ?_⟩
  · rw [EllipseOK.norm_polar Kp.uu Kp.ww Kp.uw]
    have hs := sq_sqrt (show 0 ≤ 1 - x ^ 2 by nlinarith)
    rw [show (v * -sqrt (1 - x ^ 2)) ^ 2 + (v * x) ^ 2 = v ^ 2 * (sqrt (1 - x ^ 2) ^ 2 + x ^ 2) by ring, hs,
      sub_add_cancel, mul_one, sqrt_sq hv0.le]
  · rw [p1, hvx]; ring
  · rw [p2, hvx]
    congr 1
    ring

/-- The elements computed for a state after a burn along the velocity. -/
theorem burn_elements {P : Planet} (hGM : 0 < P.GM) {R U U3 : V3} {dV : ℝ} (hU : U ≠ 0)
    (hU3 : U3 = U + (dV / V3.norm U) • U) (hE : Spec.energy P.GM R U3 ≠ 0)
    (hne : (V3.cross R U3).x ≠ 0 ∨ (V3.cross R U3).y ≠ 0) (hecc : Spec.eccVec P.GM R U3 ≠ 0) :
    ∃ el, burnElements P R U dV = some el ∧ el.a = -P.GM / (2 * Spec.energy P.GM R U3) ∧
      el.e = V3.norm (Spec.eccVec P.GM R U3) ∧ el.h = V3.norm (V3.cross R U3) ∧
      orient (V3.cross R U3) ((1 / V3.norm (Spec.eccVec P.GM R U3)) • Spec.eccVec P.GM R U3) = some el.o := by
  have hH0 : V3.cross R U3 ≠ 0 := by rintro h; rw [h] at hne; simp at hne
  have hR : R ≠ 0 := by
    rintro rfl; apply hH0; ext <;> simp [V3.cross]
  have hU30 : U3 ≠ 0 := by
    rintro rfl; apply hH0; ext <;> simp [V3.cross]
  obtain ⟨g, hg, -, -, -, hgh⟩ := fpaOf_spec hR hU30
  obtain ⟨el, h1, h2⟩ := elementsOf_conic hGM hE hne hecc hgh
  refine ⟨el, ?_, h2⟩
  unfold burnElements burn
  simp only [bind, Option.bind, pure]
  rw [npUnit_some hU]
  simp only []
  have : U + dV • (1 / V3.norm U) • U = U3 := by
    rw [hU3, V3.smul_smul]; congr 2; ring
  rw [this, hg]
  exact h1

/-- C117: the orbit after the deflection.  At every anomaly `t` of the probe orbit the manoeuvre starts at the right distance
`r` and with the right speed `v`, and the semi-major axis after a burn `dV2` is that of an orbit with speed `v + dV2` at the
distance `r`.  The angular momentum is not that of the probe orbit times `1 + dV2 / v`, but the value given here, because the
position uses the argument of periapsis of the orbiter and the velocity that of the probe (`D` is their difference).

Partial: full claim is that the angular momentum is `(1 + dV2 / v) * probe.h`, which is false (`C117_zero_burn`). -/
theorem C117_deflection_partial (name : String) (O : Orbiter) (hP : Planet.init name = .ok O.P) (th dV : ℝ) (R1 U1 U2 : V3)
    (h : Spec.Release O th dV R1 U1 U2) : ∃ self probe, O.orbit = some self ∧ O.probeElements th dV = some probe ∧
    ∀ t r v D : ℝ, r = probe.h ^ 2 / O.P.GM / (1 + probe.e * cos t) → v = sqrt (O.P.GM * (2 / r - 1 / probe.a)) →
      D = probe.o.omega - self.o.omega → 0 < r ∧ 0 < v ∧ ∃ R U, posProbe O.P.GM self probe t = some R ∧
      velProbe O.P.GM self probe t = some U ∧ V3.norm R = r ∧ V3.norm U = v ∧
      ∀ dV2 U3, -v < dV2 → U3 = U + (dV2 / v) • U → Spec.energy O.P.GM R U3 ≠ 0 → V3.cross R U3 ≠ 0 →
        Spec.eccVec O.P.GM R U3 ≠ 0 → ∃ defl, O.deflElements self probe t dV2 = some defl ∧
          defl.a * (2 / r - (v + dV2) ^ 2 / O.P.GM) = 1 ∧
          defl.h = (1 + dV2 / v) *
            |probe.h / 1.0000001 * cos D - r * v * sqrt (1 - (probe.h / (r * v) / 1.0000001) ^ 2) * sin D| := by
  obtain ⟨_, hRP, hGM, _⟩ := C01_planet_consistent name O.P hP
  obtain ⟨el, probe, u, w, up, F⟩ := release_facts hP h
  refine ⟨el, probe, F.orbit, F.elements, fun t r v D hr hv hD => ?_⟩
  have hr' : r = EllipseOK.rad O.P.GM probe t := hr
  have hv' : v = EllipseOK.spd O.P.GM probe t := by rw [hv, hr']; rfl
  have hr0 : 0 < r := by rw [hr']; exact F.S.ok.rad_pos t
  have hv0 : 0 < v := by rw [hv']; exact F.S.ok.spd_pos t
  obtain ⟨R, U, hR, hU, hRn, hUn, -, hdot, hcr⟩ := deflect_state F t r v D hr' hv' hD
  refine ⟨hr0, hv0, R, U, hR, hU, hRn, hUn, fun dV2 U3 hdV2 hU3 hE hc he => ?_⟩
  have hU0 : U ≠ 0 := by
    rintro rfl
    rw [V3.norm_eq_zero.mpr rfl] at hUn
    linarith
  set k := 1 + dV2 / v with hk
  have hk0 : 0 < k := by
    have : -1 < dV2 / v := by rw [lt_div_iff₀ hv0]; linarith
    linarith
  have hU3k : U3 = k • U := by
    rw [hU3, hk]; ext <;> simp only [V3.add_x, V3.add_y, V3.add_z, V3.smul_x, V3.smul_y, V3.smul_z] <;> ring
  have hcr3 : V3.cross R U3 = (k * (r * (-(v * sqrt (1 - (probe.h / (r * v) / kap) ^ 2)) * sin D + probe.h / r / kap * cos D))) • w := by
    rw [hU3k, V3.cross_smul_right, hcr, V3.smul_smul]
  have hne : (V3.cross R U3).x ≠ 0 ∨ (V3.cross R U3).y ≠ 0 := by
    rw [hcr3] at hc ⊢
    have hz : k * (r * (-(v * sqrt (1 - (probe.h / (r * v) / kap) ^ 2)) * sin D + probe.h / r / kap * cos D)) ≠ 0 := by
      intro h0
      apply hc
      rw [h0]
      ext <;> simp
    rcases F.tilted with h | h
    · left; exact mul_ne_zero hz h
    · right; exact mul_ne_zero hz h
  obtain ⟨defl, e1, e2, -, e4, -⟩ := burn_elements hGM hU0 (by rw [hUn]; exact hU3) hE hne he
  refine ⟨defl, ?_, ?_, ?_⟩
  · unfold Orbiter.deflElements
    rw [hR, hU]
    exact e1
  · have hUn3 : V3.norm U3 = v + dV2 := by
      rw [hU3k, V3.norm_smul, abs_of_pos hk0, hUn, hk]
      field_simp
    have hEv : Spec.energy O.P.GM R U3 = (v + dV2) ^ 2 / 2 - O.P.GM / r := by
      unfold Spec.energy; rw [hUn3, hRn]
    rw [e2]
    have : 2 / r - (v + dV2) ^ 2 / O.P.GM = -(2 * Spec.energy O.P.GM R U3) / O.P.GM := by
      rw [hEv]; field_simp; ring
    rw [this]
    field_simp
  · rw [e4, hcr3, V3.norm_smul, V3.norm_of_dot_one F.K.ww, mul_one, abs_mul, abs_of_pos hk0]
    congr 2
    change _ = probe.h / kap * cos D - r * v * sqrt (1 - (probe.h / (r * v) / kap) ^ 2) * sin D
    field_simp
    ring

/-- Where the periapsis of the probe orbit lies after a release at `π / 2` that halves the speed. -/
theorem quarter_turn {O : Orbiter} {R1 U1 U2 : V3} {el probe : Elements} {u w up : V3} (hGM : 0 < O.P.GM)
    (F : ReleaseFacts O (π / 2) (-(V3.norm U1 / 2)) R1 U1 U2 el probe u w up) (hU1p : 0 < V3.norm U1) {D : ℝ}
    (hD : D = probe.o.omega - el.o.omega) : sin D < -(3 / 4) ∧ 0 < cos D ∧ cos D < 67 / 100 := by
  have hk := kap_gt
  have Kp := F.S.ok
  obtain ⟨c1, c2⟩ := cross_unit F.K.uu F.K.ww F.K.uw
  have hturn := F.turn
  rw [← hD] at hturn
  have he0 := F.S.epos
  have he1 := Kp.e1
  have hh0 := Kp.hpos
  have hph : probe.h = 1 / 2 * (el.h / kap) := by
    rw [F.h]; congr 1; field_simp; norm_num
  have hrad : EllipseOK.rad O.P.GM el (π / 2) = el.h ^ 2 / O.P.GM := by
    unfold EllipseOK.rad; rw [cos_pi_div_two, mul_zero, add_zero, div_one]
  have helh := F.K.hpos
  have hrad0 : 0 < EllipseOK.rad O.P.GM el (π / 2) := F.K.rad_pos _
  have hR1 := F.R1
  rw [cos_pi_div_two, sin_pi_div_two] at hR1
  set ρ := EllipseOK.rad O.P.GM el (π / 2) with hρ
  have hdu : V3.dot R1 up = ρ * sin D := by
    rw [hR1, hturn]
    generalize V3.cross w u = q at c1 c2
    have : V3.dot (ρ • ((0:ℝ) • u + (1:ℝ) • q)) (cos D • u + sin D • q) =
        ρ * (cos D * V3.dot u q + sin D * V3.dot q q) := by
      simp only [V3.dot, V3.add_x, V3.add_y, V3.add_z, V3.smul_x, V3.smul_y, V3.smul_z]; ring
    rw [this, c1, c2]; ring
  have hdq : V3.dot R1 (V3.cross w up) = ρ * cos D := by
    have c4 : V3.cross w (V3.cross w u) = (-1:ℝ) • u := by
      have : V3.cross w (V3.cross w u) = V3.dot u w • w - V3.dot w w • u := by
        ext <;> simp only [V3.cross, V3.dot, V3.sub_x, V3.sub_y, V3.sub_z, V3.smul_x, V3.smul_y, V3.smul_z] <;> ring
      rw [this, F.K.ww, F.K.uw]; ext <;> simp
    have c5 : V3.cross w up = cos D • V3.cross w u + sin D • V3.cross w (V3.cross w u) := by
      rw [hturn]
      ext <;> simp only [V3.cross, V3.add_x, V3.add_y, V3.add_z, V3.smul_x, V3.smul_y, V3.smul_z] <;> ring
    rw [c5, c4, hR1]
    generalize V3.cross w u = q at c1 c2
    have : V3.dot (ρ • ((0:ℝ) • u + (1:ℝ) • q)) (cos D • q + sin D • (-1:ℝ) • u) =
        ρ * (cos D * V3.dot q q - sin D * V3.dot u q) := by
      simp only [V3.dot, V3.add_x, V3.add_y, V3.add_z, V3.smul_x, V3.smul_y, V3.smul_z]; ring
    rw [this, c1, c2]; ring
  have hs := F.S.cosnu
  rw [hdu, F.rad] at hs
  have hc := F.S.sinnu
  rw [hdq] at hc
  have hcos : 0 < cos D := by
    have h1 : 0 < probe.e * (ρ * cos D) := by rw [hc]; exact mul_pos (div_pos hh0 hGM) F.out
    have h2 := (mul_pos_iff_of_pos_left he0).mp h1
    exact (mul_pos_iff_of_pos_left hrad0).mp h2
  have hsin : sin D < -(3 / 4) := by
    have h1 : probe.h ^ 2 / O.P.GM < ρ / 4 := by
      rw [hph, hrad, div_div, div_lt_div_iff₀ hGM (by positivity)]
      have : (el.h / kap) ^ 2 < el.h ^ 2 := by
        apply pow_lt_pow_left₀ _ (by positivity) two_ne_zero
        rw [div_lt_iff₀ (by linarith)]; nlinarith
      nlinarith
    change _ = _ - ρ at hs
    have h2 : probe.e * sin D < -(3 / 4) := by
      by_contra hcon
      rw [not_lt] at hcon
      have : ρ * (-(3 / 4)) ≤ ρ * (probe.e * sin D) := mul_le_mul_of_nonneg_left hcon hrad0.le
      nlinarith
    have h3 : sin D < 0 := by
      by_contra hcon
      rw [not_lt] at hcon
      have := mul_nonneg he0.le hcon
      linarith
    have h4 : 0 < (1 - probe.e) * -sin D := mul_pos (by linarith) (by linarith)
    linarith
  have hcos1 : cos D < 67 / 100 := by
    have := sin_sq_add_cos_sq D
    nlinarith
  exact ⟨hsin, hcos, hcos1⟩

/-- A conic of larger eccentricity with the same semi-major axis does not pass through the apoapsis of the first. -/
theorem misses_apoapsis {u w : V3} (hu : V3.dot u u = 1) (hw : V3.dot w w = 1) (huw : V3.dot u w = 0) {a e ed r t ρd : ℝ}
    (ha : 0 < a) (he0 : 0 ≤ e) (hel : e < ed) (hd1 : ed < 1) (hra : r = a * (1 + e))
    (hρd : ρd = a * (1 - ed ^ 2) / (1 + ed * cos t)) (ht : ρd • (cos t • u + sin t • V3.cross w u) =
      r • (cos π • u + sin π • V3.cross w u)) : False := by
  obtain ⟨c1, c2⟩ := cross_unit hu hw huw
  have hr0 : 0 < r := by rw [hra]; positivity
  have hden : 0 < 1 + ed * cos t := by
    have : ed * -1 ≤ ed * cos t := mul_le_mul_of_nonneg_left (neg_one_le_cos t) (by linarith)
    linarith
  have hrd : 0 < ρd := by
    rw [hρd]
    have : 0 < 1 - ed ^ 2 := by nlinarith
    positivity
  rw [cos_pi, sin_pi] at ht
  generalize V3.cross w u = q at c1 c2 ht
  have k1 : ρd * cos t = -r := by
    have := congrArg (fun x => V3.dot u x) ht
    have x1 : V3.dot u (ρd • (cos t • u + sin t • q)) = ρd * (cos t * V3.dot u u + sin t * V3.dot u q) := by
      simp only [V3.dot, V3.add_x, V3.add_y, V3.add_z, V3.smul_x, V3.smul_y, V3.smul_z]; ring
    have x2 : V3.dot u (r • ((-1:ℝ) • u + (0:ℝ) • q)) = -r * V3.dot u u := by
      simp only [V3.dot, V3.add_x, V3.add_y, V3.add_z, V3.smul_x, V3.smul_y, V3.smul_z]; ring
    rw [x1, x2, hu, c2] at this
    linarith
  have k2 : ρd * sin t = 0 := by
    have := congrArg (fun x => V3.dot q x) ht
    have x1 : V3.dot q (ρd • (cos t • u + sin t • q)) = ρd * (cos t * V3.dot u q + sin t * V3.dot q q) := by
      simp only [V3.dot, V3.add_x, V3.add_y, V3.add_z, V3.smul_x, V3.smul_y, V3.smul_z]; ring
    have x2 : V3.dot q (r • ((-1:ℝ) • u + (0:ℝ) • q)) = -r * V3.dot u q := by
      simp only [V3.dot, V3.add_x, V3.add_y, V3.add_z, V3.smul_x, V3.smul_y, V3.smul_z]; ring
    rw [x1, x2, c1, c2] at this
    linarith
  have hst : sin t = 0 := by
    rcases mul_eq_zero.mp k2 with h | h
    · exact absurd h hrd.ne'
    · exact h
  have hct : cos t = -1 := by
    have h1 := sin_sq_add_cos_sq t
    rw [hst] at h1
    have h2 : cos t < 0 := by
      by_contra hcon
      rw [not_lt] at hcon
      have := mul_nonneg hrd.le hcon
      linarith
    nlinarith
  rw [hct] at k1 hρd
  have hρ1 : ρd = a * (1 + ed) := by
    have : 1 + ed * -1 ≠ 0 := by linarith
    rw [hρd, div_eq_iff this]
    ring
  rw [hρ1, hra] at k1
  have : a * (ed - e) = 0 := by linarith
  have : 0 < a * (ed - e) := mul_pos ha (by linarith)
  linarith

set_option maxHeartbeats 800000 in
/-- C117, finding: from every orbit, release a probe a quarter orbit after periapsis with a burn that halves the speed, and
"deflect" the orbiter at apoapsis with no burn at all.  Nothing should change.  The code reports an orbit with the same
semi-major axis but less than 7/10 of the angular momentum, which never passes through the point of the manoeuvre. -/
theorem C117_zero_burn (name : String) (O : Orbiter) (hP : Planet.init name = .ok O.P) (R1 U1 U2 : V3)
    (h : Spec.Release O (π / 2) (-(V3.norm U1 / 2)) R1 U1 U2) : ∃ self probe defl R, O.orbit = some self ∧
      O.probeElements (π / 2) (-(V3.norm U1 / 2)) = some probe ∧ O.deflElements self probe π 0 = some defl ∧
      posProbe O.P.GM self probe π = some R ∧ defl.a = probe.a ∧ 0 < defl.h ∧ defl.h < 7 / 10 * probe.h ∧
      probe.e < defl.e ∧ ∀ t, posDefl O.P.GM self defl t ≠ some R := by
  obtain ⟨_, hRP, hGM, _⟩ := C01_planet_consistent name O.P hP
  obtain ⟨el, probe, u, w, up, F⟩ := release_facts hP h
  have hk := kap_gt
  have hkl : kap < 1.0000002 := by unfold kap; norm_num
  have Kp := F.S.ok
  obtain ⟨D, hD⟩ : ∃ D, D = probe.o.omega - el.o.omega := ⟨_, rfl⟩
  obtain ⟨c1, c2⟩ := cross_unit F.K.uu F.K.ww F.K.uw
  have he0 := F.S.epos
  have he1 := Kp.e1
  have hh0 := Kp.hpos
  have ha0 := Kp.apos
  have hU1p : 0 < V3.norm U1 := by have := h.forward; linarith
  obtain ⟨hsin, hcos, hcos1⟩ := quarter_turn hGM F hU1p hD
  -- the state at apoapsis of the probe orbit
  obtain ⟨r, hr⟩ : ∃ r, r = EllipseOK.rad O.P.GM probe π := ⟨_, rfl⟩
  obtain ⟨v, hv⟩ : ∃ v, v = EllipseOK.spd O.P.GM probe π := ⟨_, rfl⟩
  have hr0 : 0 < r := by rw [hr]; exact Kp.rad_pos _
  have hv0 : 0 < v := by rw [hv]; exact Kp.spd_pos _
  have hra : r = probe.a * (1 + probe.e) := by
    rw [hr]; unfold EllipseOK.rad
    rw [cos_pi, Kp.hsq]
    have : 1 + probe.e * -1 ≠ 0 := by linarith
    rw [div_eq_iff this]
    field_simp
    ring
  have hvsq : v ^ 2 = O.P.GM * (2 / r - 1 / probe.a) := by
    rw [hv, hr]
    unfold EllipseOK.spd; rw [sq_sqrt (by rw [Kp.spd_sq]; have := Kp.rad_pos π; positivity)]
  have hrv : r * v = probe.h := by
    have h1 : (r * v) ^ 2 = probe.h ^ 2 := by
      rw [mul_pow, hvsq, Kp.hsq, hra]
      have : 1 + probe.e ≠ 0 := by linarith
      field_simp
      ring
    exact (pow_left_inj₀ (by positivity) hh0.le two_ne_zero).mp h1
  obtain ⟨R, U, hR, hU, hRn, hUn, hRe, hdot, hcr⟩ := deflect_state F π r v D hr hv hD
  rw [hrv, div_self hh0.ne'] at hdot hcr
  set σ := sqrt (1 - (1 / kap) ^ 2) with hσ
  have hσ0 : 0 ≤ σ := sqrt_nonneg _
  have hik : 0 < 1 / kap := by positivity
  have hik1 : 1 / kap < 1 := by rw [div_lt_one (by linarith)]; exact hk
  have hik2 : 9999998 / 10000000 < 1 / kap := by
    rw [div_lt_div_iff₀ (by norm_num) (by linarith)]; norm_num at hkl ⊢; linarith
  have hσ1 : σ < 1 / 1000 := by
    rw [hσ, sqrt_lt' (by norm_num)]; nlinarith
  have hhr : probe.h / r / kap = v * (1 / kap) := by rw [← hrv]; field_simp
  rw [hhr] at hdot hcr
  set c := r * (-(v * σ) * sin D + v * (1 / kap) * cos D) with hcd
  have hce : c = probe.h * (σ * -sin D + 1 / kap * cos D) := by rw [hcd, ← hrv]; ring
  have hs1 : -1 ≤ sin D := neg_one_le_sin D
  have hc0 : 0 < c := by
    rw [hce]
    have h1 : 0 ≤ σ * -sin D := mul_nonneg hσ0 (by linarith)
    have h2 : 0 < 1 / kap * cos D := mul_pos hik hcos
    positivity
  have hc1 : c < 7 / 10 * probe.h := by
    rw [hce, mul_comm (7 / 10) _]
    apply mul_lt_mul_of_pos_left _ hh0
    have h1 : σ * -sin D ≤ σ * 1 := mul_le_mul_of_nonneg_left (by linarith) hσ0
    have h2 : 1 / kap * cos D < 1 * cos D := mul_lt_mul_of_pos_right hik1 hcos
    linarith
  have hdot0 : 0 < V3.dot R U := by
    rw [hdot, show r * (-(v * σ) * cos D - v * (1 / kap) * sin D) = r * v * (1 / kap * -sin D - σ * cos D) by ring, hrv]
    apply mul_pos hh0
    have h1 : σ * cos D ≤ 1 / 1000 * 1 := mul_le_mul hσ1.le (cos_le_one D) hcos.le (by norm_num)
    have h2 : 9999998 / 10000000 * (3 / 4) < 1 / kap * -sin D := by
      apply mul_lt_mul' hik2.le (by linarith) (by norm_num) hik
    linarith
  have hne : (V3.cross R U).x ≠ 0 ∨ (V3.cross R U).y ≠ 0 := by
    rw [hcr]
    rcases F.tilted with h | h
    · left; exact mul_ne_zero hc0.ne' h
    · right; exact mul_ne_zero hc0.ne' h
  have hcr0 : V3.cross R U ≠ 0 := by rintro h0; rw [h0] at hne; simp at hne
  have hU0 : U ≠ 0 := by
    rintro rfl
    rw [V3.norm_eq_zero.mpr rfl] at hUn
    linarith
  have hE : Spec.energy O.P.GM R U = -O.P.GM / (2 * probe.a) := by
    unfold Spec.energy
    rw [hUn, hRn, hvsq]; field_simp; ring
  have hE0 : Spec.energy O.P.GM R U ≠ 0 := by
    rw [hE]; exact (div_neg_of_neg_of_pos (by linarith) (by positivity)).ne
  have hecc := ecc_ne_zero hGM hcr0 hdot0.ne'
  obtain ⟨defl, e1, e2, e3, e4, e5⟩ := burn_elements hGM (U3 := U) (dV := 0) hU0
    (by rw [zero_div]; ext <;> simp) hE0 hne hecc
  have hda : defl.a = probe.a := by rw [e2, hE]; field_simp
  have hdh : defl.h = c := by rw [e4, hcr, V3.norm_smul, V3.norm_of_dot_one F.K.ww, abs_of_pos hc0, mul_one]
  have hR0 : R ≠ 0 := by rintro rfl; rw [V3.norm_eq_zero.mpr rfl] at hRn; linarith
  have hde0 : 0 ≤ defl.e := by rw [e3]; exact V3.norm_nonneg _
  have hde : c ^ 2 = O.P.GM * probe.a * (1 - defl.e ^ 2) := by
    have h2 := ecc_sq hGM hR0 U
    rw [← V3.norm_sq, ← e3, ← e4, hdh, hE] at h2
    rw [h2]; field_simp; ring
  have hel : probe.e < defl.e := by
    have h1 : c ^ 2 < probe.h ^ 2 := pow_lt_pow_left₀ (by linarith) hc0.le two_ne_zero
    rw [hde, Kp.hsq] at h1
    have h2 : 1 - defl.e ^ 2 < 1 - probe.e ^ 2 := lt_of_mul_lt_mul_left h1 (by positivity)
    exact lt_of_pow_lt_pow_left₀ 2 hde0 (by linarith)
  have hd1 : defl.e < 1 := by
    have h1 : 0 < O.P.GM * probe.a * (1 - defl.e ^ 2) := by rw [← hde]; positivity
    have h2 : 0 < 1 - defl.e ^ 2 := (mul_pos_iff_of_pos_left (mul_pos hGM ha0)).mp h1
    clear_value c σ
    clear hdot hcr e1 e2 e3 e4 e5
    nlinarith only [h2, hde0]
  refine ⟨el, probe, defl, R, F.orbit, F.elements, ?_, hR, hda, by rw [hdh]; exact hc0, by rw [hdh]; exact hc1, hel, ?_⟩
  · unfold Orbiter.deflElements
    rw [hR, hU]
    exact e1
  · intro t ht
    have hang : defl.o.i = probe.o.i ∧ defl.o.OMEGA = probe.o.OMEGA := by
      have : V3.cross R U = (c / probe.h) • V3.cross R1 U2 := by
        rw [hcr, F.S.hw, V3.smul_smul]; congr 1; field_simp
      rw [this] at e5
      exact orient_dir (by positivity) F.S.ho e5
    have hden : 1 + defl.e * cos t ≠ 0 := by
      have : defl.e * -1 ≤ defl.e * cos t := mul_le_mul_of_nonneg_left (neg_one_le_cos t) hde0
      linarith
    have hun := F.K.unit t
    have : conicUnit defl.o (t + el.o.omega) = conicUnit el.o (t + el.o.omega) := by
      unfold conicUnit; rw [hang.1, hang.2, F.orient.1, F.orient.2]
    unfold posDefl at ht
    rw [npDiv_some hden] at ht
    simp only [bind, Option.bind, pure, Option.some.injEq] at ht
    rw [this, hun, hRe] at ht
    have hrde : defl.h ^ 2 / O.P.GM = probe.a * (1 - defl.e ^ 2) := by rw [hdh, hde]; field_simp
    exact misses_apoapsis F.K.uu F.K.ww F.K.uw ha0 he0.le hel hd1 hra (by rw [hrde]) ht

/-- Case for `C117_zero_burn` and (with any burn) `C117_deflection_partial`: a release from the orbit of `mars_exit`. -/
theorem mars_release (th : ℝ) : ∃ (O : Orbiter) (R1 U1 U2 : V3), Planet.init "MARS" = .ok O.P ∧
    Spec.Release O th (-(V3.norm U1 / 2)) R1 U1 U2 ∧ O.periAltKm = 400 ∧ Spec.exitPos O = ⟨3509500, 0, 0⟩ ∧
    Spec.exitVel O = ⟨0, 3509500 * 7.088253e-5, 4000⟩ := by
  obtain ⟨O, hP, hr, hq, hper, h⟩ := mars_exit 400 (by norm_num)
  obtain ⟨hE, hy, hecc, -, hRe, hUe⟩ := h _ _ rfl rfl
  obtain ⟨_, hRP, hGM, _⟩ := C01_planet_consistent "MARS" O.P hP
  obtain ⟨coast, u, w, hc, S, hRn⟩ := coast_core hGM hr rfl rfl hE (Or.inr hy) hecc
  obtain ⟨-, el, hO, K, ho, -, -⟩ := prm_core S.ok hRP hc hq
  obtain ⟨U, hU, hUn⟩ := K.velocity_norm th
  obtain ⟨r0, u0, d0, n0, x0, f0⟩ := ellipse_rv K (K.pos th) hU
  have hUp := V3.norm_pos u0
  refine ⟨O, _, U, (1 / 2 : ℝ) • U, hP, ⟨hr, hE, Or.inr hy, hecc, hq, by unfold Orbiter.pos; rw [hO]; exact K.pos th,
    by unfold Orbiter.vel; rw [hO]; exact hU, by linarith, ?_, ?_⟩, hper, hRe, hUe⟩
  · have : -(V3.norm U / 2) / V3.norm U = -(1 / 2) := by field_simp
    rw [this]; ext <;> simp only [V3.add_x, V3.add_y, V3.add_z, V3.smul_x, V3.smul_y, V3.smul_z] <;> ring
  · unfold Spec.energy
    rw [V3.norm_smul, n0, hUn, abs_of_pos (by norm_num), mul_pow]
    have h2 : EllipseOK.spd O.P.GM el th ^ 2 = O.P.GM * (2 / EllipseOK.rad O.P.GM el th - 1 / el.a) := by
      unfold EllipseOK.spd; rw [sq_sqrt (by rw [K.spd_sq]; positivity)]
    have ha := K.apos
    have hrp := K.rad_pos th
    have h4 : 0 < O.P.GM / el.a := by positivity
    have h5 : 0 < O.P.GM / EllipseOK.rad O.P.GM el th := by positivity
    have h6 : EllipseOK.spd O.P.GM el th ^ 2 = 2 * (O.P.GM / EllipseOK.rad O.P.GM el th) - O.P.GM / el.a := by rw [h2]; ring
    rw [h6]; linarith

end AMAT.Props
