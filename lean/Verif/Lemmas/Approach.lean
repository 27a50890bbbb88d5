import Verif.Model.Approach
import Verif.Lemmas.Conic

/-
Helper lemmas for the arrival hyperbola.
-/

noncomputable section

namespace AMAT

open Real

/-- The facts about an arrival hyperbola that all later results use: `V` arrival speed, `e`, `b`, `h` the scalar
parameters, `d` the arrival direction, `u` the periapsis direction, `w` the orbit normal. -/
structure ApproachCore (A : Approach) (V e b h : ℝ) (d u w : V3) : Prop where
  gm : 0 < A.P.GM
  rp : 0 < A.rp
  hV : V = A.vInfMag
  vpos : 0 < V
  ha : A.a = some (-A.P.GM / V ^ 2)
  he : A.e = some e
  heq : e = 1 + A.rp * V ^ 2 / A.P.GM
  e1 : 1 < e
  hb : A.beta = some b
  cb : cos b = 1 / e
  sb : 0 < sin b
  b0 : 0 < b
  bpi : b < π / 2
  hh : A.h = some h
  hpos : 0 < h
  hsq : h ^ 2 = A.P.GM * A.rp * (1 + e)
  hd : d = ⟨sin A.phi2 * cos A.phi1, sin A.phi2 * sin A.phi1, cos A.phi2⟩
  hvd : A.vInfBi = V • d
  hu : A.rpUnit = some u
  uu : V3.dot u u = 1
  ud : V3.dot u d = cos b
  dd : V3.dot d d = 1
  udp : A.biToBiDprime u = ⟨sin b * cos A.psi, sin b * sin A.psi, cos b⟩
  ddp : A.biToBiDprime d = ⟨0, 0, 1⟩
  ws : V3.cross u d = sin b • w
  ww : V3.dot w w = 1
  uw : V3.dot u w = 0
  hhv : A.hVec = some ((A.rp * V * sin b) • w)
  heu : A.eUnit = some u

theorem icrf_rot (P : Planet) : Spec.IsRotation (icrfToBi P) := by
  have : icrfToBi P = fun v => (R1 (π / 2 - P.d0)).mulVec ((R3 (π / 2 + P.a0)).mulVec v) := by
    funext v; unfold icrfToBi; rw [mul_mulVec]
  rw [this]
  exact IsRotation.comp (R1_rot _) (R3_rot _)

theorem dprime_rot (A : Approach) : Spec.IsRotation A.biToBiDprime := by
  have : A.biToBiDprime = fun v => (R2 A.phi2).mulVec ((R3 A.phi1).mulVec v) := by
    funext v; unfold Approach.biToBiDprime; rw [mul_mulVec]
  rw [this]
  exact IsRotation.comp (R2_rot _) (R3_rot _)

theorem vInfBi_norm (A : Approach) : V3.norm A.vInfBi = A.vInfMag := by
  unfold Approach.vInfBi Approach.vInfMag Approach.vInfBiKms
  rw [V3.norm_smul, IsRotation.norm (icrf_rot _)]
  rw [abs_of_pos (by norm_num)]; ring

/-- The arrival direction in terms of the two rotation angles (any arrival vector, including zero). -/
theorem vInfBi_dir (A : Approach) : A.vInfBi =
    A.vInfMag • (⟨sin A.phi2 * cos A.phi1, sin A.phi2 * sin A.phi1, cos A.phi2⟩ : V3) := by
  set v := A.vInfBi with hv
  set ρ := sqrt (v.x ^ 2 + v.y ^ 2) with hρ
  have hρ2 : ρ ^ 2 = v.x ^ 2 + v.y ^ 2 := sq_sqrt (by positivity)
  have c1 : ρ * cos A.phi1 = v.x := arctan2_cos v.y v.x
  have s1 : ρ * sin A.phi1 = v.y := arctan2_sin v.y v.x
  have sc := sin_sq_add_cos_sq A.phi1
  have px : A.vInfBiPrime.x = ρ := by
    have : A.vInfBiPrime.x = cos A.phi1 * v.x + sin A.phi1 * v.y := by
      simp only [Approach.vInfBiPrime, R3, Mat3.mulVec, V3.dot, ← hv]; ring
    rw [this, ← c1, ← s1]; linear_combination ρ * sc
  have pz : A.vInfBiPrime.z = v.z := by
    simp only [Approach.vInfBiPrime, R3, Mat3.mulVec, V3.dot, ← hv]; ring
  have hV : A.vInfMag = sqrt (v.z ^ 2 + ρ ^ 2) := by
    rw [← vInfBi_norm, ← hv, hρ2]; unfold V3.norm V3.dot; congr 1; ring
  have c2 : A.vInfMag * cos A.phi2 = v.z := by
    have := arctan2_cos A.vInfBiPrime.x A.vInfBiPrime.z
    rw [px, pz, ← hV] at this
    unfold Approach.phi2
    rw [px, pz]; exact this
  have s2 : A.vInfMag * sin A.phi2 = ρ := by
    have := arctan2_sin A.vInfBiPrime.x A.vInfBiPrime.z
    rw [px, pz, ← hV] at this
    unfold Approach.phi2
    rw [px, pz]; exact this
  ext <;> simp only [V3.smul_x, V3.smul_y, V3.smul_z]
  · rw [← c1, ← s2]; ring
  · rw [← s1, ← s2]; ring
  · rw [c2]

theorem approach_core (A : Approach) (hGM : 0 < A.P.GM) (hv : A.vInfIcrfKms ≠ 0) (hrp : 0 < A.rp) :
    ∃ V e b h d u w, ApproachCore A V e b h d u w := by
  set V := A.vInfMag with hV
  have hVp : 0 < V := by
    rw [hV]; unfold Approach.vInfMag
    have := V3.norm_pos hv
    have : (0:ℝ) < 1e3 := by norm_num
    positivity
  set e := 1 + A.rp * V ^ 2 / A.P.GM with he
  have he1 : 1 < e := by
    have : 0 < A.rp * V ^ 2 / A.P.GM := by positivity
    linarith
  have ha : A.a = some (-A.P.GM / V ^ 2) := by
    unfold Approach.a; rw [← hV, npDiv_some (by positivity)]
  have hae : A.e = some e := by
    unfold Approach.e
    rw [ha]
    simp only [bind, Option.bind, pure]
    have : -A.P.GM / V ^ 2 ≠ 0 := by
      have : 0 < A.P.GM / V ^ 2 := by positivity
      rw [neg_div]; linarith
    rw [npDiv_some this]
    simp only [he, Option.some.injEq]
    field_simp
    ring
  have h1e : 0 < 1 / e ∧ 1 / e < 1 := ⟨by positivity, by rw [div_lt_one (by linarith)]; exact he1⟩
  set b := arccos (1 / e) with hbdef
  have hab : A.beta = some b := by
    unfold Approach.beta
    rw [hae]
    simp only [bind, Option.bind]
    rw [npDiv_some (by linarith), Lits.l10]
    simp only []
    rw [npArccos_some ⟨by linarith [h1e.1], h1e.2.le⟩]
  have hcb : cos b = 1 / e := cos_arccos (by linarith [h1e.1]) h1e.2.le
  have hb0 : 0 < b := arccos_pos.mpr h1e.2
  have hbp : b < π / 2 := arccos_lt_pi_div_two.mpr h1e.1
  have hsb : 0 < sin b := sin_pos_of_pos_of_lt_pi hb0 (by linarith [pi_pos])
  have hrad : -A.P.GM / V ^ 2 * A.P.GM * (1 - e ^ 2) = A.P.GM * A.rp * (1 + e) := by
    have : A.P.GM * (e - 1) = A.rp * V ^ 2 := by rw [he]; field_simp; ring
    have h2 : -A.P.GM / V ^ 2 * A.P.GM * (1 - e ^ 2) = A.P.GM * (A.P.GM * (e - 1)) * (1 + e) / V ^ 2 := by ring
    rw [h2, this, div_eq_iff (by positivity)]
    ring
  have hradp : 0 < A.P.GM * A.rp * (1 + e) := by positivity
  set h := sqrt (A.P.GM * A.rp * (1 + e)) with hh
  have hah : A.h = some h := by
    unfold Approach.h
    rw [ha, hae]
    simp only [bind, Option.bind]
    rw [hrad, npSqrt_some hradp.le]
  have hhp : 0 < h := sqrt_pos.mpr hradp
  have hh2 : h ^ 2 = A.P.GM * A.rp * (1 + e) := sq_sqrt hradp.le
  have s1 := sin_sq_add_cos_sq A.phi1
  have s2 := sin_sq_add_cos_sq A.phi2
  have s3 := sin_sq_add_cos_sq A.psi
  have s4 := sin_sq_add_cos_sq b
  set d : V3 := ⟨sin A.phi2 * cos A.phi1, sin A.phi2 * sin A.phi1, cos A.phi2⟩ with hd
  set u : V3 := ⟨cos A.phi1 * (sin b * cos A.psi * cos A.phi2 + cos b * sin A.phi2) - sin A.phi1 * sin b * sin A.psi,
    sin A.phi1 * (sin b * cos A.psi * cos A.phi2 + cos b * sin A.phi2) + cos A.phi1 * sin b * sin A.psi,
    cos b * cos A.phi2 - sin b * cos A.psi * sin A.phi2⟩ with hu
  set w : V3 := ⟨cos A.phi1 * (sin A.psi * cos A.phi2) - sin A.phi1 * (-cos A.psi),
    sin A.phi1 * (sin A.psi * cos A.phi2) + cos A.phi1 * (-cos A.psi), - sin A.psi * sin A.phi2⟩ with hw
  have hau : A.rpUnit = some u := by
    unfold Approach.rpUnit; rw [hab]; rfl
  have huu : V3.dot u u = 1 := by
    simp only [V3.dot, hu]
    generalize cos A.phi1 = a1 at *; generalize sin A.phi1 = a2 at *; generalize cos A.phi2 = a3 at *
    generalize sin A.phi2 = a4 at *; generalize cos A.psi = a5 at *; generalize sin A.psi = a6 at *
    have e1 : (a1 * (sin b * a5 * a3 + cos b * a4) - a2 * sin b * a6) * (a1 * (sin b * a5 * a3 + cos b * a4) - a2 * sin b * a6) +
        (a2 * (sin b * a5 * a3 + cos b * a4) + a1 * sin b * a6) * (a2 * (sin b * a5 * a3 + cos b * a4) + a1 * sin b * a6) +
        (cos b * a3 - sin b * a5 * a4) * (cos b * a3 - sin b * a5 * a4) =
        (a2 ^ 2 + a1 ^ 2) * ((sin b * a5 * a3 + cos b * a4) ^ 2 + (sin b * a6) ^ 2) + (cos b * a3 - sin b * a5 * a4) ^ 2 := by ring
    rw [e1, s1]
    have e2 : 1 * ((sin b * a5 * a3 + cos b * a4) ^ 2 + (sin b * a6) ^ 2) + (cos b * a3 - sin b * a5 * a4) ^ 2 =
        (a4 ^ 2 + a3 ^ 2) * ((sin b * a5) ^ 2 + cos b ^ 2) + (sin b * a6) ^ 2 := by ring
    rw [e2, s2]
    linear_combination sin b ^ 2 * s3 + s4
  have hdd : V3.dot d d = 1 := by
    simp only [V3.dot, hd]
    linear_combination (sin A.phi2 ^ 2) * s1 + s2
  have hud : V3.dot u d = cos b := by
    simp only [V3.dot, hu, hd]
    linear_combination (sin A.phi2 * (sin b * cos A.psi * cos A.phi2 + cos b * sin A.phi2)) * s1 + cos b * s2
  have hws : V3.cross u d = sin b • w := by
    ext <;> simp only [V3.cross, hu, hd, hw, V3.smul_x, V3.smul_y, V3.smul_z]
    · linear_combination (sin b * cos A.psi * sin A.phi1) * s2
    · linear_combination (-(sin b * cos A.psi * cos A.phi1)) * s2
    · linear_combination (-(sin b * sin A.psi * sin A.phi2)) * s1
  have hww : V3.dot w w = 1 := by
    simp only [V3.dot, hw]
    linear_combination ((sin A.psi * cos A.phi2) ^ 2 + cos A.psi ^ 2) * s1 + sin A.psi ^ 2 * s2 + s3
  have huw : V3.dot u w = 0 := by
    have h1 := V3.dot_cross_left u d
    rw [hws, V3.dot_smul_right] at h1
    rcases mul_eq_zero.mp h1 with h | h
    · linarith
    · exact h
  have hvd : A.vInfBi = V • d := vInfBi_dir A
  have hudp : A.biToBiDprime u = ⟨sin b * cos A.psi, sin b * sin A.psi, cos b⟩ := by
    unfold Approach.biToBiDprime
    rw [mul_mulVec]
    ext <;> simp only [Mat3.mulVec, R2, R3, V3.dot, hu]
    · linear_combination (cos A.phi2 * (sin b * cos A.psi * cos A.phi2 + cos b * sin A.phi2)) * s1 + (sin b * cos A.psi) * s2
    · linear_combination (sin b * sin A.psi) * s1
    · linear_combination (sin A.phi2 * (sin b * cos A.psi * cos A.phi2 + cos b * sin A.phi2)) * s1 + cos b * s2
  have hddp : A.biToBiDprime d = ⟨0, 0, 1⟩ := by
    unfold Approach.biToBiDprime
    rw [mul_mulVec]
    ext <;> simp only [Mat3.mulVec, R2, R3, V3.dot, hd]
    · linear_combination (cos A.phi2 * sin A.phi2) * s1
    · ring
    · linear_combination (sin A.phi2 ^ 2) * s1 + s2
  have hhv : A.hVec = some ((A.rp * V * sin b) • w) := by
    unfold Approach.hVec Approach.rpVec
    rw [hau]
    simp only [bind, Option.bind, pure]
    rw [hvd, V3.cross_smul_left, V3.cross_smul_right, hws, V3.smul_smul, V3.smul_smul]
  have heu : A.eUnit = some u := by
    unfold Approach.eUnit Approach.eVec
    rw [hae, hau]
    simp only [bind, Option.bind, pure]
    have hn : V3.norm (e • u) = e := by rw [V3.norm_smul, V3.norm_of_dot_one huu, abs_of_pos (by linarith), mul_one]
    have hne : e • u ≠ 0 := by
      intro h0; rw [h0, V3.norm_eq_zero.mpr rfl] at hn; linarith
    rw [npUnit_some hne, hn, V3.smul_smul]
    congr 1
    rw [show 1 / e * e = 1 by field_simp, V3.one_smul]
  exact ⟨V, e, b, h, d, u, w, ⟨hGM, hrp, hV, hVp, ha, hae, he, he1, hab, hcb, hsb, hb0, hbp, hah, hhp, hh2, hd, hvd, hau,
    huu, hud, hdd, hudp, hddp, hws, hww, huw, hhv, heu⟩⟩

namespace ApproachCore

variable {A : Approach} {V e b h : ℝ} {d u w : V3}

/-- The orientation of a non-equatorial arrival orbit. -/
theorem orientation (H : ApproachCore A V e b h d u w) (hn : w.x ≠ 0 ∨ w.y ≠ 0) :
    ∃ o, A.orientation = some o ∧ (∀ t, conicUnit o (t + o.omega) = cos t • u + sin t • V3.cross w u) ∧
      (∀ vr vt t, conicVel vr vt o t = vr • (cos t • u + sin t • V3.cross w u) +
        vt • ((-sin t) • u + cos t • V3.cross w u)) := by
  have hk : 0 < A.rp * V * sin b := by have := H.rp; have := H.vpos; have := H.sb; positivity
  have hnorm : V3.norm ((A.rp * V * sin b) • w) = A.rp * V * sin b := by
    rw [V3.norm_smul, V3.norm_of_dot_one H.ww, abs_of_pos hk, mul_one]
  have hunit : (1 / V3.norm ((A.rp * V * sin b) • w)) • (A.rp * V * sin b) • w = w := by
    rw [hnorm, V3.smul_smul, one_div_mul_cancel hk.ne', V3.one_smul]
  obtain ⟨o, ho, h1, h2, -, -⟩ := orient_spec (hVec := (A.rp * V * sin b) • w) H.uu (by rw [V3.dot_smul_right, H.uw, mul_zero]) (by
    rcases hn with h | h
    · left; exact mul_ne_zero hk.ne' h
    · right; exact mul_ne_zero hk.ne' h)
  rw [hunit] at h1 h2
  refine ⟨o, ?_, h1, h2⟩
  unfold Approach.orientation
  rw [H.hhv, H.heu]
  exact ho

/-- Energy of the hyperbola in terms of radial and transverse speed. -/
theorem speed_sq (H : ApproachCore A V e b h d u w) {t r : ℝ}
    (hr : r = h ^ 2 / A.P.GM / (1 + e * cos t)) :
    (A.P.GM / h * e * sin t) ^ 2 + (A.P.GM / h * (1 + e * cos t)) ^ 2 = V ^ 2 + 2 * A.P.GM / r := by
  have hg := H.gm; have hrp := H.rp; have hh := H.hpos; have he := H.e1
  have hV : V ^ 2 = A.P.GM * (e - 1) / A.rp := by rw [H.heq]; field_simp; ring
  have sc := sin_sq_add_cos_sq t
  have e1 : (A.P.GM / h * e * sin t) ^ 2 + (A.P.GM / h * (1 + e * cos t)) ^ 2 =
      A.P.GM ^ 2 / h ^ 2 * (e ^ 2 - 1 + 2 * (1 + e * cos t)) := by
    field_simp; linear_combination e ^ 2 * sc
  rw [e1, hr, H.hsq, hV]
  field_simp
  ring

/-- The radius. -/
theorem radius (H : ApproachCore A V e b h d u w) {t : ℝ} (hc : 0 < 1 + e * cos t) :
    A.rMag t = some (h ^ 2 / A.P.GM / (1 + e * cos t)) := by
  unfold Approach.rMag conicRadius
  rw [H.hh, H.he]
  simp only [bind, Option.bind]
  rw [npDiv_some hc.ne']

theorem pos (H : ApproachCore A V e b h d u w) (hn : w.x ≠ 0 ∨ w.y ≠ 0) {t : ℝ} (hc : 0 < 1 + e * cos t) :
    A.posVec t = some ((h ^ 2 / A.P.GM / (1 + e * cos t)) • (cos t • u + sin t • V3.cross w u)) := by
  obtain ⟨o, ho, h1, -⟩ := H.orientation hn
  unfold Approach.posVec conicPos
  rw [H.hh, H.he, ho]
  simp only [bind, Option.bind, pure]
  rw [npDiv_some hc.ne', h1]

/-- The velocity the code computes: transverse speed right, radial speed always inward. -/
theorem vel (H : ApproachCore A V e b h d u w) (hn : w.x ≠ 0 ∨ w.y ≠ 0) {t : ℝ} (hc : 0 < 1 + e * cos t) :
    A.velVec t = some ((-(A.P.GM / h * e * |sin t|)) • (cos t • u + sin t • V3.cross w u) +
      (A.P.GM / h * (1 + e * cos t)) • ((-sin t) • u + cos t • V3.cross w u)) := by
  have hg := H.gm; have hrp := H.rp; have hh := H.hpos; have he := H.e1
  obtain ⟨o, ho, -, h2⟩ := H.orientation hn
  set r := h ^ 2 / A.P.GM / (1 + e * cos t) with hr
  have hrp : 0 < r := by rw [hr]; positivity
  have hsp := H.speed_sq hr
  set vt := A.P.GM / h * (1 + e * cos t) with hvt
  have hvtp : 0 < vt := by rw [hvt]; positivity
  have hrvt : r * vt = h := by rw [hr, hvt]; field_simp
  have hv2 : 0 < V ^ 2 + 2 * A.P.GM / r := by rw [← hsp]; positivity
  set v := sqrt (V ^ 2 + 2 * A.P.GM / r) with hv
  have hvp : 0 < v := sqrt_pos.mpr hv2
  have hvsq : v ^ 2 = (A.P.GM / h * e * sin t) ^ 2 + vt ^ 2 := by rw [hv, sq_sqrt hv2.le, hsp]
  have hx : h / (r * v) = vt / v := by rw [← hrvt]; field_simp
  have hx1 : 0 < vt / v ∧ vt / v ≤ 1 := by
    refine ⟨by positivity, ?_⟩
    rw [div_le_one hvp]
    refine le_of_sq_le_sq ?_ hvp.le
    rw [hvsq]; nlinarith [sq_nonneg (A.P.GM / h * e * sin t)]
  unfold Approach.velVec
  rw [H.radius hc, H.hh, ho]
  simp only [bind, Option.bind, pure]
  rw [← hr, npDiv_some hrp.ne']
  simp only []
  rw [← H.hV, npSqrt_some hv2.le]
  simp only []
  rw [← hv, npDiv_some (by positivity), hx]
  simp only []
  rw [npArccos_some ⟨by linarith [hx1.1], hx1.2⟩]
  simp only []
  rw [h2]
  have hs : v * sin (-1 * arccos (vt / v)) = -(A.P.GM / h * e * |sin t|) := by
    rw [neg_one_mul, sin_neg, sin_arccos]
    have e1 : (1 - (vt / v) ^ 2) = (A.P.GM / h * e * sin t / v) ^ 2 := by
      rw [div_pow, div_pow, eq_div_iff (by positivity), sub_mul, div_mul_cancel₀ _ (by positivity), hvsq]; ring
    rw [e1, sqrt_sq_eq_abs, abs_div, abs_of_pos hvp, abs_mul, abs_of_pos (show 0 < A.P.GM / h * e by positivity)]
    field_simp
  have hcs : v * cos (-1 * arccos (vt / v)) = vt := by
    rw [neg_one_mul, cos_neg, cos_arccos (by linarith [hx1.1]) hx1.2]
    field_simp
  rw [hs, hcs]

end ApproachCore

end AMAT
