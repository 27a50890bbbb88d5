import Verif.Props.ProbeSite
import Verif.Model.Trajectory

/-
Property C140: the entry state computed by `Approach`, handed to `Vehicle.setInitialState`.  Which part of the arrival's entry
position and velocity the vehicle starts with.
-/

noncomputable section

open Real

namespace AMAT.Props

/-- What a caller passes to `setInitialState` (vehicle.py:516-563) for an arrival: interface altitude in km, and the longitude,
latitude, speed, heading and flight-path angle that `Approach` stores (approach.py:264-290) in degrees and km/s. -/
def handedOver (hE lon lat v psi g : ℝ) : InitState :=
  { h0Km := hE / 1000, theta0Deg := lon * 180 / π, phi0Deg := lat * 180 / π, v0Kms := v / 1000, psi0Deg := psi * 180 / π,
    gamma0Deg := g * 180 / π, drange0Km := 0, heatLoad0 := 0 }

theorem entryState_handedOver (P : Planet) (hE lon lat v psi g : ℝ) :
    Vehicle.entryState P (handedOver hE lon lat v psi g) =
      { r := P.RP + hE, theta := lon, phi := lat, v := v, psi := psi, gamma := g, drange := 0 } := by
  have hp := pi_pos.ne'
  have e1 : (180.0 : ℝ) = 180 := by norm_num
  have e2 : (1.0E3 : ℝ) = 1000 := by norm_num
  have e3 : (1.000E3 : ℝ) = 1000 := by norm_num
  unfold Vehicle.entryState handedOver Planet.computeR
  rw [e1, e2, e3]
  congr 1
  · field_simp
  · field_simp
  · field_simp
  · field_simp
  · field_simp
  · field_simp
  · norm_num

/-- A vector in the local frame. -/
theorem local_eq {lon lat a b c : ℝ} {W : V3} :
    a • Spec.up lon lat + (b • Spec.east lon + c • Spec.north lon lat) = W ↔
      a = V3.dot W (Spec.up lon lat) ∧ b = V3.dot W (Spec.east lon) ∧ c = V3.dot W (Spec.north lon lat) := by
  have h1 := sin_sq_add_cos_sq lon
  have h2 := sin_sq_add_cos_sq lat
  constructor
  · rintro rfl
    simp only [V3.dot, Spec.up, Spec.east, Spec.north, V3.add_x, V3.add_y, V3.add_z, V3.smul_x, V3.smul_y, V3.smul_z]
    refine ⟨?_, ?_, ?_⟩
    · linear_combination (-a) * h2 + (-a * cos lat ^ 2 + c * sin lat * cos lat) * h1
    · linear_combination (-b) * h1
    · linear_combination (-c) * h2 + (a * sin lat * cos lat - c * sin lat ^ 2) * h1
  · rintro ⟨rfl, rfl, rfl⟩
    ext <;> simp only [V3.dot, Spec.up, Spec.east, Spec.north, V3.add_x, V3.add_y, V3.add_z, V3.smul_x, V3.smul_y, V3.smul_z]
    · linear_combination (W.x * cos lon ^ 2 + W.y * sin lon * cos lon) * h2 + W.x * h1
    · linear_combination (W.y * sin lon ^ 2 + W.x * sin lon * cos lon) * h2 + W.y * h1
    · linear_combination W.z * h2

/-- Squared length in the local frame. -/
theorem local_norm (lon lat : ℝ) (W : V3) : V3.norm W ^ 2 = V3.dot W (Spec.up lon lat) ^ 2 + V3.dot W (Spec.east lon) ^ 2 +
    V3.dot W (Spec.north lon lat) ^ 2 := by
  have h1 := sin_sq_add_cos_sq lon
  have h2 := sin_sq_add_cos_sq lat
  rw [V3.norm_sq]
  simp only [V3.dot, Spec.up, Spec.east, Spec.north]
  linear_combination (-(W.x * cos lon + W.y * sin lon) ^ 2 - W.z ^ 2) * h2 - (W.x ^ 2 + W.y ^ 2) * h1

/-- The velocity a vehicle starts with, from a speed, a flight-path angle with the right radial part and a heading whose cosine is
the eastward part over the speed. -/
theorem start_velocity {lon lat psi g : ℝ} {W : V3} (hW : 0 < V3.norm W) (hs : V3.norm W * sin g = V3.dot W (Spec.up lon lat))
    (hg1 : -(π / 2) ≤ g) (hg2 : g ≤ π / 2) (hp0 : 0 ≤ psi) (hp1 : psi ≤ π)
    (hc : V3.norm W * cos psi = V3.dot W (Spec.east lon)) :
    Spec.vel lon lat (V3.norm W) psi g = W ↔
      (V3.dot W (Spec.up lon lat) = 0 ∨ V3.dot W (Spec.east lon) = 0) ∧ 0 ≤ V3.dot W (Spec.north lon lat) := by
  have hN := local_norm lon lat W
  have hcg := cos_nonneg_of_neg_pi_div_two_le_of_le hg1 hg2
  have hsp := sin_nonneg_of_nonneg_of_le_pi hp0 hp1
  have hg := sin_sq_add_cos_sq g
  have hp := sin_sq_add_cos_sq psi
  have hsplit : Spec.vel lon lat (V3.norm W) psi g = (V3.norm W * sin g) • Spec.up lon lat +
      ((V3.norm W * cos g * cos psi) • Spec.east lon + (V3.norm W * cos g * sin psi) • Spec.north lon lat) := by
    unfold Spec.vel Spec.along Spec.horiz
    ext <;> simp only [V3.add_x, V3.add_y, V3.add_z, V3.smul_x, V3.smul_y, V3.smul_z] <;> ring
  rw [hsplit, local_eq]
  set s := V3.norm W
  set a := V3.dot W (Spec.up lon lat)
  set b := V3.dot W (Spec.east lon)
  set c := V3.dot W (Spec.north lon lat)
  have key : s ^ 2 * cos g ^ 2 = b ^ 2 + c ^ 2 := by
    have : s ^ 2 * (sin g ^ 2 + cos g ^ 2) = a ^ 2 + b ^ 2 + c ^ 2 := by rw [hg, mul_one, hN]
    have h2 : s ^ 2 * sin g ^ 2 = a ^ 2 := by rw [← hs]; ring
    linarith
  constructor
  · rintro ⟨-, h2, h3⟩
    have h3' : 0 ≤ c := by rw [← h3]; positivity
    refine ⟨?_, h3'⟩
    have h4 : b * (cos g - 1) = 0 := by rw [← hc] at h2 ⊢; linarith
    rcases mul_eq_zero.mp h4 with h5 | h5
    · exact Or.inr h5
    · left
      have h6 : cos g = 1 := by linarith
      rw [h6] at hg
      have h7 : sin g = 0 := by
        have : sin g ^ 2 = 0 := by linarith
        exact pow_eq_zero_iff two_ne_zero |>.mp this
      rw [← hs, h7, mul_zero]
  · rintro ⟨h1, h2⟩
    have hb : s * cos g * cos psi = b := by
      rcases h1 with h1 | h1
      · rw [h1] at hs
        have h7 : sin g = 0 := (mul_eq_zero.mp hs).resolve_left hW.ne'
        have h8 : cos g = 1 := by
          rw [h7] at hg
          have : (cos g - 1) * (cos g + 1) = 0 := by linarith
          rcases mul_eq_zero.mp this with h | h
          · linarith
          · linarith
        rw [h8, mul_one, hc]
      · rw [h1] at hc ⊢
        have : cos psi = 0 := (mul_eq_zero.mp hc).resolve_left hW.ne'
        rw [this, mul_zero]
    refine ⟨hs, hb, ?_⟩
    have h9 : (s * cos g * sin psi) ^ 2 = c ^ 2 := by
      have : (s * cos g * sin psi) ^ 2 + (s * cos g * cos psi) ^ 2 = s ^ 2 * cos g ^ 2 := by
        linear_combination s ^ 2 * cos g ^ 2 * hp
      rw [hb] at this
      linarith
    exact (sq_eq_sq₀ (by positivity) h2).mp h9

/-! ### C140 -/

/-- C140.  For every arrival that enters at a point with `x > 0` and not straight down: a vehicle given the arrival's entry state
starts at the arrival's entry position, with its speed and with its vertical speed relative to the atmosphere. It starts with the
arrival's relative velocity exactly when that velocity has no southward part and is horizontal or has no eastward part. -/
theorem C140_start_partial (name : String) (v : V3) (rp psi hE : ℝ) (A : Approach) (Hv R U : V3)
    (hA : Approach.init name v rp psi true (some hE) = .ok A) (hv : v ≠ 0) (hrp : 0 < rp) (hH : A.hVec = some Hv)
    (hne : Hv.x ≠ 0 ∨ Hv.y ≠ 0) (hle : rp ≤ A.P.RP + hE) (hR : A.rVecEntry hE = some R) (hU : A.vVecEntry hE = some U)
    (hx : 0 < R.x) (hp : Spec.horizontal R (U - V3.cross (Spec.spin A.P.OMEGA) R) ≠ 0) :
    ∃ lon lat W psi g, A.longitudeEntry hE = some lon ∧ A.latitudeEntry hE = some lat ∧ A.vVecEntryAtm hE = some W ∧
      A.headingEntryAtm hE = some psi ∧ A.gammaEntryAtm hE = some g ∧ W = U - V3.cross (Spec.spin A.P.OMEGA) R ∧
      ∀ s, s = Vehicle.entryState A.P (handedOver hE lon lat (V3.norm W) psi g) →
        Spec.pos s.r s.theta s.phi = R ∧ V3.norm (Spec.vel s.theta s.phi s.v s.psi s.gamma) = V3.norm W ∧
        V3.dot R (Spec.vel s.theta s.phi s.v s.psi s.gamma) = V3.dot R W ∧
        (Spec.vel s.theta s.phi s.v s.psi s.gamma = W ↔
          (V3.dot R W = 0 ∨ V3.dot W (Spec.eastAt R) = 0) ∧ 0 ≤ V3.dot W (Spec.north lon lat)) := by
  obtain ⟨t, R', U', sp, g', -, -, -, hR', -, hnorm, -⟩ := C50_entry_state_partial name v rp psi hE A Hv hA hv hrp hH hne hle
  rw [hR] at hR'
  obtain rfl := Option.some.inj hR'
  obtain ⟨lon, lat, hlon, hlat, hup, hWa⟩ := C51_longitude_partial A hE R U hR hU hx
  obtain ⟨H, g, e1, e2, e3, e4, e5, e6, e7, e8⟩ := C52_heading_relation A hE R U hR hU hx hp
  obtain ⟨-, hlon', -⟩ := entry_atm hR hU hx.ne'
  rw [hlon] at hlon'
  have hlonv := Option.some.inj hlon'
  have heast : Spec.eastAt R = Spec.east lon := by
    rw [← eastAt_eq hx, Spec.east, hlonv]
  set W := U - V3.cross (Spec.spin A.P.OMEGA) R with hWd
  have hR0 : R ≠ 0 := by rintro rfl; exact lt_irrefl _ hx
  have hRn := V3.norm_pos hR0
  have hW0 : W ≠ 0 := by
    intro h0
    apply hp
    rw [h0]
    unfold Spec.horizontal
    ext <;> simp [V3.dot]
  have hWn := V3.norm_pos hW0
  have hRW : V3.dot R W = V3.norm R * V3.dot W (Spec.up lon lat) := by
    conv_lhs => rw [hup]
    simp only [V3.dot, V3.smul_x, V3.smul_y, V3.smul_z]; ring
  have hs : V3.norm W * sin g = V3.dot W (Spec.up lon lat) := by
    have : V3.norm R * (V3.norm W * sin g) = V3.norm R * V3.dot W (Spec.up lon lat) := by rw [← hRW, ← e5]; ring
    exact mul_left_cancel₀ hRn.ne' this
  have hrad : Spec.radial R = Spec.up lon lat := by
    unfold Spec.radial
    conv_lhs => rw [hup, V3.norm_smul, abs_of_pos hRn]
    have hu1 : V3.norm (Spec.up lon lat) = 1 := by
      apply V3.norm_of_dot_one
      simp only [V3.dot, Spec.up]
      linear_combination sin_sq_add_cos_sq lat + cos lat ^ 2 * sin_sq_add_cos_sq lon
    rw [hu1]
    ext <;> simp only [V3.smul_x, V3.smul_y, V3.smul_z] <;> field_simp
  have hcg := cos_nonneg_of_neg_pi_div_two_le_of_le e6 e7
  have hN := local_norm lon lat W
  have hhe : V3.dot (Spec.horizontal R W) (Spec.eastAt R) = V3.dot W (Spec.east lon) := by
    have h1 := eastAt_radial R
    rw [heast] at h1 ⊢
    have : V3.dot (Spec.horizontal R W) (Spec.east lon) = V3.dot W (Spec.east lon) -
        V3.dot W (Spec.radial R) * V3.dot (Spec.radial R) (Spec.east lon) := by
      unfold Spec.horizontal
      simp only [V3.dot, V3.sub_x, V3.sub_y, V3.sub_z, V3.smul_x, V3.smul_y, V3.smul_z]; ring
    rw [this, h1]; ring
  have hhn : V3.norm (Spec.horizontal R W) = V3.norm W * cos g := by
    apply V3.norm_eq_of_sq (by positivity)
    have hrr : V3.dot (Spec.radial R) (Spec.radial R) = 1 := V3.unit_dot_self hR0
    have : V3.dot (Spec.horizontal R W) (Spec.horizontal R W) = V3.dot W W - 2 * V3.dot W (Spec.radial R) ^ 2 +
        V3.dot W (Spec.radial R) ^ 2 * V3.dot (Spec.radial R) (Spec.radial R) := by
      unfold Spec.horizontal
      simp only [V3.dot, V3.sub_x, V3.sub_y, V3.sub_z, V3.smul_x, V3.smul_y, V3.smul_z]; ring
    rw [this, hrr, hrad, ← hs, ← V3.norm_sq]
    linear_combination (-V3.norm W ^ 2) * sin_sq_add_cos_sq g
  have hhp : 0 < V3.norm (Spec.horizontal R W) := V3.norm_pos hp
  have hcH : V3.norm W * cos H = V3.dot W (Spec.east lon) := by
    have hE := eastAt_norm hx.ne'
    have hb := V3.abs_dot_le (Spec.horizontal R W) (Spec.eastAt R)
    rw [hE, mul_one, abs_le] at hb
    have : cos (Spec.angle (Spec.horizontal R W) (Spec.eastAt R)) = V3.dot W (Spec.east lon) / V3.norm (Spec.horizontal R W) := by
      unfold Spec.angle
      rw [hE, mul_one, cos_arccos, hhe]
      · rw [le_div_iff₀ hhp]; linarith [hb.1]
      · rw [div_le_iff₀ hhp]; linarith [hb.2]
    rw [e8, this, ← mul_assoc, ← hhn]
    field_simp
  refine ⟨lon, lat, W, H, g, hlon, hlat, hWa, e1, e2, rfl, ?_⟩
  rintro s rfl
  rw [entryState_handedOver]
  have hvn : ∀ th ph ve ps ga : ℝ, V3.dot (Spec.vel th ph ve ps ga) (Spec.vel th ph ve ps ga) = ve ^ 2 := by
    intro th ph ve ps ga
    have := local_norm th ph (Spec.vel th ph ve ps ga)
    have hsplit : (ve * sin ga) • Spec.up th ph +
        ((ve * cos ga * cos ps) • Spec.east th + (ve * cos ga * sin ps) • Spec.north th ph) = Spec.vel th ph ve ps ga := by
      unfold Spec.vel Spec.along Spec.horiz
      ext <;> simp only [V3.add_x, V3.add_y, V3.add_z, V3.smul_x, V3.smul_y, V3.smul_z] <;> ring
    obtain ⟨f1, f2, f3⟩ := local_eq.mp hsplit
    rw [← V3.norm_sq, this, ← f1, ← f2, ← f3]
    linear_combination ve ^ 2 * sin_sq_add_cos_sq ga + ve ^ 2 * cos ga ^ 2 * sin_sq_add_cos_sq ps
  refine ⟨?_, ?_, ?_, ?_⟩
  · unfold Spec.pos
    rw [← hnorm]; exact hup.symm
  · exact V3.norm_eq_of_sq hWn.le (hvn _ _ _ _ _)
  · rw [hRW, ← hs]
    have hsplit : (V3.norm W * sin g) • Spec.up lon lat +
        ((V3.norm W * cos g * cos H) • Spec.east lon + (V3.norm W * cos g * sin H) • Spec.north lon lat) =
          Spec.vel lon lat (V3.norm W) H g := by
      unfold Spec.vel Spec.along Spec.horiz
      ext <;> simp only [V3.add_x, V3.add_y, V3.add_z, V3.smul_x, V3.smul_y, V3.smul_z] <;> ring
    obtain ⟨f1, -, -⟩ := local_eq.mp hsplit
    rw [f1]
    conv_lhs => rw [hup]
    simp only [V3.dot, V3.smul_x, V3.smul_y, V3.smul_z]; ring
  · have h2 : V3.dot R W = 0 ↔ V3.dot W (Spec.up lon lat) = 0 := by
      rw [hRW]; exact ⟨fun h => (mul_eq_zero.mp h).resolve_left hRn.ne', fun h => by rw [h, mul_zero]⟩
    rw [h2, heast]
    exact start_velocity hWn hs e6 e7 e3 e4 hcH

/-- Polar arrival at Earth with aim angle 0 (northbound) or π (southbound), entering at periapsis. -/
theorem polar_periapsis_entry {psi c : ℝ} (hc : cos psi = c) (hc2 : c = 1 ∨ c = -1) (hsin : sin psi = 0) : ∃ (A : Approach) (Hv R U : V3),
    Approach.init "EARTH" ⟨0, 10, 0⟩ 6371e3 psi true (some 0) = .ok A ∧ A.hVec = some Hv ∧ (Hv.x ≠ 0 ∨ Hv.y ≠ 0) ∧
    (6371e3 : ℝ) ≤ A.P.RP + 0 ∧ A.rVecEntry 0 = some R ∧ A.vVecEntry 0 = some U ∧ 0 < R.x ∧ V3.dot R U = 0 ∧ 0 < c * U.z := by
  obtain ⟨A, V, e, b, h, d, u, w, hA, H, hu, hw, hRP, hrp, -, -⟩ :=
    earth_aim (rp := 6371e3) (psi := psi) true (some 0) (by simp) (by norm_num)
  rw [hc, hsin, mul_zero] at hu
  rw [hc, hsin] at hw
  have hc0 : c ≠ 0 := by rcases hc2 with rfl | rfl <;> norm_num
  have hn : w.x ≠ 0 ∨ w.y ≠ 0 := by right; rw [hw]; simpa using hc0
  have hr : A.rEI 0 = A.rp := by unfold Approach.rEI; rw [hRP, hrp, add_zero]
  obtain ⟨t, ht, ht1, ht2, hct, hre, hR, hU⟩ := Core.entry H hn (hE := 0) hr.ge
  have hrpp := H.rp; have hg := H.gm; have he := H.e1; have hh := H.hpos; have hV := H.vpos; have hsb := H.sb
  have hcos : cos t = 1 := by
    rw [hr, H.hsq] at hre
    rw [div_eq_iff hct.ne', div_eq_iff hg.ne'] at hre
    have : A.P.GM * A.rp * e * (cos t - 1) = 0 := by linarith
    have hne : A.P.GM * A.rp * e ≠ 0 := by positivity
    have := (mul_eq_zero.mp this).resolve_left hne
    linarith
  have hst : sin t = 0 := by
    have := sin_sq_add_cos_sq t
    rw [hcos] at this
    have : sin t ^ 2 = 0 := by linarith
    exact pow_eq_zero_iff two_ne_zero |>.mp this
  have hcb : 0 < cos b := by rw [H.cb]; positivity
  refine ⟨A, _, _, _, hA, H.hhv, ?_, by rw [hRP]; norm_num, hR, hU, ?_, ?_, ?_⟩
  · have hk : A.rp * V * sin b ≠ 0 := by positivity
    rcases hn with h1 | h1
    · left; exact mul_ne_zero hk h1
    · right; exact mul_ne_zero hk h1
  · unfold cPos
    rw [hre, hr, hcos, hst, hu]
    simp only [V3.add_x, V3.smul_x]
    have := mul_pos hrpp hcb
    linarith
  · obtain ⟨-, -, -, -, -, l6, -⟩ := Core.laws H hct
    rw [l6, hst]; ring
  · unfold cVel
    rw [hw, hu, hcos, hst]
    simp only [V3.add_z, V3.smul_z, V3.cross]
    have h2 : 0 < A.P.GM / h * ((e + 1) * cos b) := by positivity
    have hcc : c * c = 1 := by rcases hc2 with rfl | rfl <;> norm_num
    have : c * (A.P.GM / h * (-0 * -(sin b * c) + (e + 1) * (0 * 0 - -c * cos b))) =
      (c * c) * (A.P.GM / h * ((e + 1) * cos b)) := by ring
    rw [hcc, one_mul] at this
    linarith

/-- The vertical part of a horizontal velocity along the planet's axis. -/
theorem axis_split (lon lat : ℝ) (W : V3) :
    W.z = sin lat * V3.dot W (Spec.up lon lat) + cos lat * V3.dot W (Spec.north lon lat) := by
  simp only [V3.dot, Spec.up, Spec.north]
  linear_combination (-W.z) * sin_sq_add_cos_sq lat

/-- Finding behind C140: a southbound horizontal entry is flown northbound.  Beside it, the case for `C140_start_partial` in which
the vehicle does start with the arrival's velocity: the same arrival aimed northbound. -/
theorem C140_southbound (psi : ℝ) (hsin : sin psi = 0) (hc2 : cos psi = 1 ∨ cos psi = -1) :
    ∃ (A : Approach) (lon lat H g : ℝ) (W : V3),
      Approach.init "EARTH" ⟨0, 10, 0⟩ 6371e3 psi true (some 0) = .ok A ∧ A.longitudeEntry 0 = some lon ∧
      A.latitudeEntry 0 = some lat ∧ A.vVecEntryAtm 0 = some W ∧ A.headingEntryAtm 0 = some H ∧ A.gammaEntryAtm 0 = some g ∧
      ∀ s, s = Vehicle.entryState A.P (handedOver 0 lon lat (V3.norm W) H g) →
        (Spec.vel s.theta s.phi s.v s.psi s.gamma = W ↔ cos psi = 1) := by
  obtain ⟨A, Hv, R, U, hA, hH, hne, hle, hR, hU, hx, hd, hz⟩ := polar_periapsis_entry (psi := psi) rfl hc2 hsin
  have hR0 : R ≠ 0 := by rintro rfl; exact lt_irrefl _ hx
  have hRn := V3.norm_pos hR0
  have hdW : V3.dot R (U - V3.cross (Spec.spin A.P.OMEGA) R) = 0 := by
    rw [← hd]; simp only [V3.dot, V3.cross, Spec.spin, V3.sub_x, V3.sub_y, V3.sub_z]; ring
  have hWz : (U - V3.cross (Spec.spin A.P.OMEGA) R).z = U.z := by
    simp only [V3.cross, Spec.spin, V3.sub_z]; ring
  have hp : Spec.horizontal R (U - V3.cross (Spec.spin A.P.OMEGA) R) ≠ 0 := by
    unfold Spec.horizontal Spec.radial
    rw [V3.dot_smul_right, V3.dot_comm, hdW]
    intro h0
    have := congrArg V3.z h0
    simp only [V3.sub_z, V3.smul_z, mul_zero, zero_mul, sub_zero, V3.zero_z] at this
    rw [← V3.sub_z, hWz] at this
    rw [this, mul_zero] at hz
    exact lt_irrefl _ hz
  have hv : (⟨0, 10, 0⟩ : V3) ≠ 0 := by
    intro h0
    have := congrArg V3.y h0
    simp at this
  obtain ⟨lon, lat, W, H, g, e1, e2, e3, e4, e5, e6, e7⟩ :=
    C140_start_partial "EARTH" _ _ psi 0 A Hv R U hA hv (by norm_num) hH hne hle hR hU hx hp
  refine ⟨A, lon, lat, H, g, W, hA, e1, e2, e3, e4, e5, ?_⟩
  rintro s rfl
  obtain ⟨hpos, -, -, hiff⟩ := e7 _ rfl
  rw [← e6] at hdW hWz
  rw [hiff]
  rw [entryState_handedOver] at hpos
  have hup : R = V3.norm R • Spec.up lon lat := by
    obtain ⟨lon', lat', f1, f2, f3, -⟩ := C51_longitude_partial A 0 R U hR hU hx
    rw [e1] at f1; rw [e2] at f2
    rw [Option.some.inj f1, Option.some.inj f2]; exact f3
  have hlat : 0 < cos lat := by
    obtain ⟨h1, -, -⟩ := entry_atm hR hU hx.ne'
    rw [e2] at h1
    rw [Option.some.inj h1]
    have h2 : 0 ≤ cos (arcsin (Spec.radial R).z) := cos_arcsin_nonneg _
    rcases h2.lt_or_eq with h3 | h3
    · exact h3
    · exfalso
      rw [Option.some.inj h1] at hup
      have := congrArg V3.x hup
      simp only [V3.smul_x, Spec.up] at this
      rw [← h3] at this
      linarith
  have hax := axis_split lon lat W
  have hWu : V3.dot W (Spec.up lon lat) = 0 := by
    have : V3.norm R * V3.dot W (Spec.up lon lat) = 0 := by
      rw [← hdW]
      conv_rhs => rw [hup]
      simp only [V3.dot, V3.smul_x, V3.smul_y, V3.smul_z]; ring
    exact (mul_eq_zero.mp this).resolve_left hRn.ne'
  rw [hWu, mul_zero, zero_add, hWz] at hax
  constructor
  · rintro ⟨-, h2⟩
    rcases hc2 with h | h
    · exact h
    · exfalso
      rw [h, hax] at hz
      have := mul_nonneg hlat.le h2
      linarith
  · intro h
    refine ⟨Or.inl hdW, ?_⟩
    rw [h, one_mul, hax] at hz
    exact ((pos_iff_pos_of_mul_pos hz).mp hlat).le

/-- Cases for `C140_southbound`. -/
example : (sin 0 = 0 ∧ (cos 0 = 1 ∨ cos 0 = (-1 : ℝ))) ∧ (sin π = 0 ∧ (cos π = 1 ∨ cos π = -1)) := by simp

/-- The descending case: the polar arrival of `C52_heading_wrong_reachable` starts its vehicle with another velocity. -/
example : ∃ (A : Approach) (hE lon lat H g : ℝ) (W : V3),
    Approach.init "EARTH" ⟨0, 10, 0⟩ 6371e3 0 true (some hE) = .ok A ∧ A.longitudeEntry hE = some lon ∧
    A.latitudeEntry hE = some lat ∧ A.vVecEntryAtm hE = some W ∧ A.headingEntryAtm hE = some H ∧ A.gammaEntryAtm hE = some g ∧
    ∀ s, s = Vehicle.entryState A.P (handedOver hE lon lat (V3.norm W) H g) →
      Spec.vel s.theta s.phi s.v s.psi s.gamma ≠ W := by
  obtain ⟨A, hE, R, U, hA, hR, hU, hx, hver, hew, hle⟩ := C52_heading_wrong_reachable
  obtain ⟨A', V, e, b, h, d, u, w, hA', HC, -, -, -, hw, -, -, -⟩ :=
    earth_polar (s := 1) (rp := 6371e3) (hE := hE) (Or.inl rfl) (by norm_num)
  rw [hA] at hA'
  obtain rfl := Except.ok.inj hA'
  rw [mul_one] at hA
  have hp : Spec.horizontal R (U - V3.cross (Spec.spin A.P.OMEGA) R) ≠ 0 := by
    intro h0
    rw [h0] at hew
    exact hew (by simp [V3.dot])
  have hv : (⟨0, 10, 0⟩ : V3) ≠ 0 := by
    intro h0
    have := congrArg V3.y h0
    simp at this
  have hne : ((A.rp * V * sin b) • w).x ≠ 0 ∨ ((A.rp * V * sin b) • w).y ≠ 0 := by
    right
    have h1 := HC.rp; have h2 := HC.vpos; have h3 := HC.sb
    rw [hw]; simp only [V3.smul_y]
    have : A.rp * V * sin b * -1 ≠ 0 := mul_ne_zero (by positivity) (by norm_num)
    exact this
  obtain ⟨lon, lat, W, H, g, e1, e2, e3, e4, e5, e6, e7⟩ :=
    C140_start_partial "EARTH" _ _ 0 hE A _ R U hA hv (by norm_num) HC.hhv hne hle hR hU hx hp
  refine ⟨A, hE, lon, lat, H, g, W, hA, e1, e2, e3, e4, e5, ?_⟩
  rintro s rfl hs
  obtain ⟨-, -, -, hiff⟩ := e7 _ rfl
  obtain ⟨h1, -⟩ := hiff.mp hs
  rcases h1 with h1 | h1
  · apply hver
    rw [← h1, e6]; simp only [V3.dot, V3.cross, Spec.spin, V3.sub_x, V3.sub_y, V3.sub_z]; ring
  · apply hew
    rw [← e6]
    have : V3.dot (Spec.horizontal R W) (Spec.eastAt R) = V3.dot W (Spec.eastAt R) -
        V3.dot W (Spec.radial R) * V3.dot (Spec.radial R) (Spec.eastAt R) := by
      unfold Spec.horizontal
      simp only [V3.dot, V3.sub_x, V3.sub_y, V3.sub_z, V3.smul_x, V3.smul_y, V3.smul_z]; ring
    rw [this, h1, eastAt_radial]; ring

end AMAT.Props
