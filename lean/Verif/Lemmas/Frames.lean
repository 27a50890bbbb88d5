import Mathlib.Analysis.SpecialFunctions.Trigonometric.Deriv
import Mathlib.Tactic.LinearCombination
import Mathlib.Tactic.FieldSimp
import Verif.Spec.Frames
import Verif.Spec.Ode

/-
Vector identities of the local triads (helper lemmas for the dynamics properties).
-/

noncomputable section

namespace AMAT.Frames

open Real AMAT.Spec

theorem up_dot_up (t p : ℝ) : V3.dot (up t p) (up t p) = 1 := by
  have h1 := sin_sq_add_cos_sq t; have h2 := sin_sq_add_cos_sq p
  simp only [V3.dot, up]; grind

/-- The velocity triad is orthonormal. -/
theorem triad_orthonormal (t p s g : ℝ) :
    V3.dot (along t p s g) (along t p s g) = 1 ∧ V3.dot (normal t p s g) (normal t p s g) = 1 ∧
    V3.dot (lateral t p s) (lateral t p s) = 1 ∧ V3.dot (along t p s g) (normal t p s g) = 0 ∧
    V3.dot (along t p s g) (lateral t p s) = 0 ∧ V3.dot (normal t p s g) (lateral t p s) = 0 := by
  have h1 := sin_sq_add_cos_sq t; have h2 := sin_sq_add_cos_sq p
  have h3 := sin_sq_add_cos_sq s; have h4 := sin_sq_add_cos_sq g
  refine ⟨?_, ?_, ?_, ?_, ?_, ?_⟩ <;>
    simp only [V3.dot, along, normal, lateral, horiz, up, east, north, V3.add_x, V3.add_y, V3.add_z,
      V3.smul_x, V3.smul_y, V3.smul_z] <;> grind

/-- The triad is right handed: along × normal is minus lateral. -/
theorem triad_cross (t p s g : ℝ) :
    V3.cross (along t p s g) (normal t p s g) = -lateral t p s := by
  have h1 := sin_sq_add_cos_sq t; have h2 := sin_sq_add_cos_sq p
  have h3 := sin_sq_add_cos_sq s; have h4 := sin_sq_add_cos_sq g
  ext <;> simp only [V3.cross, along, normal, lateral, horiz, up, east, north, V3.add_x, V3.add_y,
    V3.add_z, V3.smul_x, V3.smul_y, V3.smul_z, V3.neg_x, V3.neg_y, V3.neg_z] <;> grind

/-- Local triad expressed in the velocity triad. -/
theorem up_eq (t p s g : ℝ) : up t p = sin g • along t p s g + cos g • normal t p s g := by
  have h4 := sin_sq_add_cos_sq g
  ext <;> simp only [along, normal, horiz, up, east, north, V3.add_x, V3.add_y,
    V3.add_z, V3.smul_x, V3.smul_y, V3.smul_z] <;> grind

theorem north_eq (t p s g : ℝ) : north t p =
    (cos g * sin s) • along t p s g + (-(sin g * sin s)) • normal t p s g + cos s • lateral t p s := by
  have h3 := sin_sq_add_cos_sq s; have h4 := sin_sq_add_cos_sq g
  ext <;> simp only [along, normal, lateral, horiz, up, east, north, V3.add_x, V3.add_y,
    V3.add_z, V3.smul_x, V3.smul_y, V3.smul_z] <;> grind

theorem east_eq (t p s g : ℝ) : east t =
    (cos g * cos s) • along t p s g + (-(sin g * cos s)) • normal t p s g
      + (-sin s) • lateral t p s := by
  have h3 := sin_sq_add_cos_sq s; have h4 := sin_sq_add_cos_sq g
  ext <;> simp only [along, normal, lateral, horiz, up, east, north, V3.add_x, V3.add_y,
    V3.add_z, V3.smul_x, V3.smul_y, V3.smul_z] <;> grind

/-- Coriolis acceleration in the velocity triad. -/
theorem coriolis_eq (Om t p v s g : ℝ) :
    (2 : ℝ) • V3.cross (spin Om) (vel t p v s g) =
      (-(2 * Om * v * cos p * cos s)) • normal t p s g
      + (-(2 * Om * v * (cos p * sin g * sin s - sin p * cos g))) • lateral t p s := by
  have h1 := sin_sq_add_cos_sq t; have h2 := sin_sq_add_cos_sq p
  have h3 := sin_sq_add_cos_sq s; have h4 := sin_sq_add_cos_sq g
  ext <;> simp only [V3.cross, vel, spin, along, normal, lateral, horiz, up, east, north, V3.add_x,
    V3.add_y, V3.add_z, V3.smul_x, V3.smul_y, V3.smul_z] <;> grind

/-- Centripetal acceleration in the velocity triad. -/
theorem centripetal_eq (Om r t p s g : ℝ) :
    V3.cross (spin Om) (V3.cross (spin Om) (pos r t p)) =
      (-(Om ^ 2 * r * cos p * (sin g * cos p - cos g * sin p * sin s))) • along t p s g
      + (-(Om ^ 2 * r * cos p * (cos g * cos p + sin g * sin p * sin s))) • normal t p s g
      + (Om ^ 2 * r * cos p * sin p * cos s) • lateral t p s := by
  have h1 := sin_sq_add_cos_sq t; have h2 := sin_sq_add_cos_sq p
  have h3 := sin_sq_add_cos_sq s; have h4 := sin_sq_add_cos_sq g
  ext <;> simp only [V3.cross, pos, spin, along, normal, lateral, horiz, up, east, north, V3.add_x,
    V3.add_y, V3.add_z, V3.smul_x, V3.smul_y, V3.smul_z] <;> grind

/-- Derivative of the position along arbitrary differentiable coordinates. -/
theorem hasDeriv_pos {y : ℝ → FState} {t rd td pd : ℝ}
    (hr : HasDerivAt (fun s => (y s).r) rd t) (ht : HasDerivAt (fun s => (y s).theta) td t)
    (hp : HasDerivAt (fun s => (y s).phi) pd t) :
    HasDerivV3 (fun s => pos (y s).r (y s).theta (y s).phi)
      (rd • up (y t).theta (y t).phi + ((y t).r * td * cos (y t).phi) • east (y t).theta
        + ((y t).r * pd) • north (y t).theta (y t).phi) t := by
  refine ⟨?_, ?_, ?_⟩
  · have := hr.mul ((hp.cos).mul (ht.cos))
    refine this.congr_deriv ?_
    simp only [V3.add_x, V3.smul_x, up, east, north, Pi.mul_apply]; ring
  · have := hr.mul ((hp.cos).mul (ht.sin))
    refine this.congr_deriv ?_
    simp only [V3.add_y, V3.smul_y, up, east, north, Pi.mul_apply]; ring
  · have := hr.mul hp.sin
    refine this.congr_deriv ?_
    simp only [V3.add_z, V3.smul_z, up, east, north]; ring

/-- Derivative of the velocity along arbitrary differentiable coordinates. -/
theorem hasDeriv_vel {y : ℝ → FState} {t td pd vd sd gd : ℝ}
    (ht : HasDerivAt (fun s => (y s).theta) td t) (hp : HasDerivAt (fun s => (y s).phi) pd t)
    (hv : HasDerivAt (fun s => (y s).v) vd t) (hs : HasDerivAt (fun s => (y s).psi) sd t)
    (hg : HasDerivAt (fun s => (y s).gamma) gd t) :
    HasDerivV3 (fun s => vel (y s).theta (y s).phi (y s).v (y s).psi (y s).gamma)
      (vd • along (y t).theta (y t).phi (y t).psi (y t).gamma
        + ((y t).v * gd) • normal (y t).theta (y t).phi (y t).psi (y t).gamma
        + ((y t).v * cos (y t).gamma * sd) • lateral (y t).theta (y t).phi (y t).psi
        + (y t).v • V3.cross (td • (⟨0, 0, 1⟩ : V3) - pd • east (y t).theta)
            (along (y t).theta (y t).phi (y t).psi (y t).gamma)) t := by
  have h1 := sin_sq_add_cos_sq (y t).theta
  refine ⟨?_, ?_, ?_⟩
  · have := hv.mul (((hg.sin).mul ((hp.cos).mul (ht.cos))).add
      ((hg.cos).mul (((hs.cos).mul (ht.sin.neg)).add ((hs.sin).mul ((hp.sin.mul ht.cos).neg)))))
    refine this.congr_deriv ?_
    simp only [V3.cross, along, normal, lateral, horiz, up, east, north, V3.add_x,
      V3.add_y, V3.add_z, V3.sub_x, V3.sub_y, V3.sub_z, V3.smul_x, V3.smul_y, V3.smul_z,
      Pi.mul_apply, Pi.add_apply, Pi.neg_apply]
    grind
  · have := hv.mul (((hg.sin).mul ((hp.cos).mul (ht.sin))).add
      ((hg.cos).mul (((hs.cos).mul (ht.cos)).add ((hs.sin).mul ((hp.sin.mul ht.sin).neg)))))
    refine this.congr_deriv ?_
    simp only [V3.cross, along, normal, lateral, horiz, up, east, north, V3.add_x,
      V3.add_y, V3.add_z, V3.sub_x, V3.sub_y, V3.sub_z, V3.smul_x, V3.smul_y, V3.smul_z,
      Pi.mul_apply, Pi.add_apply, Pi.neg_apply]
    grind
  · have := hv.mul (((hg.sin).mul (hp.sin)).add
      ((hg.cos).mul (((hs.cos).mul (hasDerivAt_const t (0:ℝ))).add ((hs.sin).mul hp.cos))))
    refine this.congr_deriv ?_
    simp only [V3.cross, along, normal, lateral, horiz, up, east, north, V3.add_x,
      V3.add_y, V3.add_z, V3.sub_x, V3.sub_y, V3.sub_z, V3.smul_x, V3.smul_y, V3.smul_z,
      Pi.mul_apply, Pi.add_apply]
    grind

/-- Rotation of the local triad along the path, in the velocity triad. -/
theorem transport_eq (r t p v s g : ℝ) (hr : r ≠ 0) (hp : cos p ≠ 0) :
    v • V3.cross ((v * cos g * cos s / (r * cos p)) • (⟨0, 0, 1⟩ : V3)
        - (v * cos g * sin s / r) • east t) (along t p s g) =
      (-(v ^ 2 * cos g / r)) • normal t p s g
      + (v ^ 2 * cos g ^ 2 * cos s * tan p / r) • lateral t p s := by
  have h1 := sin_sq_add_cos_sq t; have h2 := sin_sq_add_cos_sq p
  have h3 := sin_sq_add_cos_sq s; have h4 := sin_sq_add_cos_sq g
  rw [tan_eq_sin_div_cos]
  ext <;> simp only [V3.cross, along, normal, lateral, horiz, up, east, north, V3.add_x, V3.add_y,
    V3.add_z, V3.sub_x, V3.sub_y, V3.sub_z, V3.smul_x, V3.smul_y, V3.smul_z] <;> field_simp <;> grind

end AMAT.Frames
