import Verif.Model.Orbiter
import Verif.Lemmas.TwoBody
import Verif.Lemmas.Kepler

/-
Helper lemmas: elements of a state, and positions and velocities on the resulting ellipse.
-/

noncomputable section

namespace AMAT

open Real

theorem fpaOf_spec {R U : V3} (hR : R ≠ 0) (hU : U ≠ 0) :
    ∃ g, fpaOf R U = some g ∧ -(π / 2) ≤ g ∧ g ≤ π / 2 ∧ V3.norm R * V3.norm U * sin g = V3.dot R U ∧
      Planet.angMomScalar (V3.norm R) (V3.norm U) g = V3.norm (V3.cross R U) := by
  have hRp := V3.norm_pos hR
  have hUp := V3.norm_pos hU
  have hdot : V3.dot ((1 / V3.norm R) • R) ((1 / V3.norm U) • U) = V3.dot R U / (V3.norm R * V3.norm U) := by
    simp only [V3.dot, V3.smul_x, V3.smul_y, V3.smul_z]; field_simp
  have hcs := V3.abs_dot_le R U
  set c := V3.dot R U / (V3.norm R * V3.norm U) with hc
  have hc1 : -1 ≤ c ∧ c ≤ 1 := by
    have h1 := abs_le.mp hcs
    constructor
    · rw [hc, le_div_iff₀ (by positivity)]; linarith
    · rw [hc, div_le_iff₀ (by positivity)]; linarith
  have hval : fpaOf R U = some (π / 2 - arccos c) := by
    unfold fpaOf
    rw [npUnit_some hR, npUnit_some hU]
    simp only [bind, Option.bind, pure, hdot]
    rw [npArccos_some hc1]
    simp only [Option.some.injEq]
    have l9 : (90.0:ℝ) = 90 := by norm_num
    rw [l9]
    have := Real.pi_ne_zero
    field_simp
    ring
  refine ⟨_, hval, ?_, ?_, ?_, ?_⟩
  · linarith [arccos_le_pi c]
  · linarith [arccos_nonneg c]
  · rw [sin_pi_div_two_sub, cos_arccos hc1.1 hc1.2, hc]; field_simp
  · unfold Planet.angMomScalar
    rw [cos_pi_div_two_sub, sin_arccos]
    symm
    apply V3.norm_eq_of_sq (by positivity)
    rw [V3.dot_cross_self, mul_pow, mul_pow, Real.sq_sqrt (by nlinarith [hc1.1, hc1.2]), V3.norm_sq, V3.norm_sq]
    have h2 : V3.dot R U = c * (V3.norm R * V3.norm U) := by rw [hc]; field_simp
    rw [h2, mul_pow, mul_pow, V3.norm_sq, V3.norm_sq]
    ring

/-- A vector orthogonal to `w` in the frame `(u, w × u)`. -/
theorem plane_decomp {u w R : V3} (hu : V3.dot u u = 1) (hw : V3.dot w w = 1) (huw : V3.dot u w = 0) (hRw : V3.dot R w = 0) :
    R = V3.dot R u • u + V3.dot R (V3.cross w u) • V3.cross w u := by
  have e1 : V3.cross w (V3.cross R u) = 0 := by
    have : V3.cross w (V3.cross R u) = V3.dot u w • R - V3.dot R w • u := by
      ext <;> simp only [V3.cross, V3.dot, V3.sub_x, V3.sub_y, V3.sub_z, V3.smul_x, V3.smul_y, V3.smul_z] <;> ring
    rw [this, huw, hRw]; ext <;> simp
  have e2 : V3.cross R u = V3.dot w (V3.cross R u) • w := by
    have : V3.dot w w • V3.cross R u = V3.dot w (V3.cross R u) • w - V3.cross w (V3.cross w (V3.cross R u)) := by
      generalize V3.cross R u = X
      ext <;> simp only [V3.cross, V3.dot, V3.sub_x, V3.sub_y, V3.sub_z, V3.smul_x, V3.smul_y, V3.smul_z] <;> ring
    rw [hw, V3.one_smul, e1] at this
    have h0 : V3.dot w (V3.cross R u) • w - V3.cross w 0 = V3.dot w (V3.cross R u) • w := by
      ext <;> simp [V3.cross]
    rw [h0] at this
    exact this
  have e3 : V3.cross u (V3.cross R u) = V3.dot u u • R - V3.dot R u • u := by
    ext <;> simp only [V3.cross, V3.dot, V3.sub_x, V3.sub_y, V3.sub_z, V3.smul_x, V3.smul_y, V3.smul_z] <;> ring
  rw [e2, V3.cross_smul_right, hu, V3.one_smul] at e3
  have e4 : V3.dot w (V3.cross R u) = -V3.dot R (V3.cross w u) := by
    simp only [V3.dot, V3.cross]; ring
  rw [e4] at e3
  have hx := congrArg V3.x e3
  have hy := congrArg V3.y e3
  have hz := congrArg V3.z e3
  generalize V3.dot R (V3.cross w u) = k at *
  generalize V3.dot R u = l at *
  simp only [V3.cross, V3.smul_x, V3.smul_y, V3.smul_z, V3.sub_x, V3.sub_y, V3.sub_z] at hx hy hz
  ext <;> simp only [V3.cross, V3.smul_x, V3.smul_y, V3.smul_z, V3.add_x, V3.add_y, V3.add_z] <;> linarith

/-- An ellipse: elements consistent with each other and with the frame `(u, w × u, w)`. -/
structure EllipseOK (GM : ℝ) (el : Elements) (u w : V3) : Prop where
  gm : 0 < GM
  apos : 0 < el.a
  e0 : -1 < el.e
  e1 : el.e < 1
  hpos : 0 < el.h
  hsq : el.h ^ 2 = GM * el.a * (1 - el.e ^ 2)
  uu : V3.dot u u = 1
  ww : V3.dot w w = 1
  uw : V3.dot u w = 0
  unit : ∀ t, conicUnit el.o (t + el.o.omega) = cos t • u + sin t • V3.cross w u
  vel : ∀ vr vt t, conicVel vr vt el.o t = vr • (cos t • u + sin t • V3.cross w u) +
    vt • ((-sin t) • u + cos t • V3.cross w u)

/-- The factor in `vel_vec_bi`. -/
def kap : ℝ := 1.0000001

theorem kap_gt : 1 < kap := by unfold kap; norm_num

namespace EllipseOK

variable {GM : ℝ} {el : Elements} {u w : V3}

theorem den (H : EllipseOK GM el u w) (t : ℝ) : 0 < 1 + el.e * cos t := by
  have h0 := H.e0; have h1 := H.e1
  have := cos_le_one t; have := neg_one_le_cos t
  rcases le_or_gt 0 el.e with h | h <;> nlinarith

/-- Radius at an anomaly. -/
def rad (GM : ℝ) (el : Elements) (t : ℝ) : ℝ := el.h ^ 2 / GM / (1 + el.e * cos t)

theorem rad_pos (H : EllipseOK GM el u w) (t : ℝ) : 0 < rad GM el t := by
  have := H.den t; have := H.gm; have := H.hpos
  unfold rad; positivity

theorem rad_eq (H : EllipseOK GM el u w) (t : ℝ) : rad GM el t = el.a * (1 - el.e ^ 2) / (1 + el.e * cos t) := by
  have := H.den t; have := H.gm
  unfold rad; rw [H.hsq]; field_simp

theorem radius (H : EllipseOK GM el u w) (t : ℝ) : conicRadius GM el.h el.e t = some (rad GM el t) := by
  unfold conicRadius; rw [npDiv_some (H.den t).ne']; rfl

theorem pos (H : EllipseOK GM el u w) (t : ℝ) :
    orbitPos GM el t = some (cPos (el.h ^ 2 / GM) el.e u (V3.cross w u) t) := by
  unfold orbitPos conicPos
  rw [npDiv_some (H.den t).ne']
  simp only [bind, Option.bind, pure]
  rw [H.unit]; rfl

/-- Vis-viva speed at an anomaly. -/
def spd (GM : ℝ) (el : Elements) (t : ℝ) : ℝ := sqrt (GM * (2 / rad GM el t - 1 / el.a))

theorem spd_sq (H : EllipseOK GM el u w) (t : ℝ) :
    GM * (2 / rad GM el t - 1 / el.a) = (GM / el.h * el.e * sin t) ^ 2 + (GM / el.h * (1 + el.e * cos t)) ^ 2 := by
  have hd := H.den t; have hg := H.gm; have hh := H.hpos; have ha := H.apos
  have sc := sin_sq_add_cos_sq t
  have he : 0 < 1 - el.e ^ 2 := by nlinarith [H.e0, H.e1]
  have e1 : (GM / el.h * el.e * sin t) ^ 2 + (GM / el.h * (1 + el.e * cos t)) ^ 2 =
      GM ^ 2 / el.h ^ 2 * (el.e ^ 2 - 1 + 2 * (1 + el.e * cos t)) := by
    field_simp; linear_combination el.e ^ 2 * sc
  rw [e1, H.rad_eq, H.hsq]
  field_simp
  ring

theorem spd_pos (H : EllipseOK GM el u w) (t : ℝ) : 0 < spd GM el t := by
  have hd := H.den t; have hg := H.gm; have hh := H.hpos
  unfold spd; rw [H.spd_sq]; exact sqrt_pos.mpr (by positivity)

/-- Transverse speed. -/
theorem ht (H : EllipseOK GM el u w) (t : ℝ) : el.h / rad GM el t = GM / el.h * (1 + el.e * cos t) := by
  have hd := H.den t; have hg := H.gm; have hh := H.hpos
  unfold rad; field_simp

theorem ratio (H : EllipseOK GM el u w) (t : ℝ) :
    0 < el.h / (rad GM el t * spd GM el t) ∧ el.h / (rad GM el t * spd GM el t) ≤ 1 := by
  have hr := H.rad_pos t; have hs := H.spd_pos t; have hh := H.hpos
  refine ⟨by positivity, ?_⟩
  rw [← div_div, div_le_one hs]
  refine le_of_sq_le_sq ?_ hs.le
  rw [H.ht]
  unfold spd
  rw [sq_sqrt (by rw [H.spd_sq]; positivity), H.spd_sq]
  nlinarith [sq_nonneg (GM / el.h * el.e * sin t)]

theorem speedAngle_eq (H : EllipseOK GM el u w) (t : ℝ) : speedAngle GM el.a el.h (rad GM el t) =
    some (spd GM el t, arccos (el.h / (rad GM el t * spd GM el t) / kap)) := by
  have hr := H.rad_pos t; have hs := H.spd_pos t; have hh := H.hpos; have hk := kap_gt
  obtain ⟨q1, q2⟩ := H.ratio t
  have h0 : 0 ≤ GM * (2 / rad GM el t - 1 / el.a) := by rw [H.spd_sq]; positivity
  unfold speedAngle
  rw [npDiv_some hr.ne', npDiv_some H.apos.ne']
  simp only [bind, Option.bind]
  rw [npSqrt_some h0]
  simp only []
  have e1 : npDiv el.h (rad GM el t * sqrt (GM * (2 / rad GM el t - 1 / el.a)) * 1.0000001) =
      some (el.h / (rad GM el t * spd GM el t) / kap) := by
    change npDiv el.h (rad GM el t * spd GM el t * kap) = _
    rw [npDiv_some (by positivity), div_div]
  rw [e1]
  simp only []
  have hx0 : 0 < el.h / (rad GM el t * spd GM el t) / kap := by positivity
  have hx1 : el.h / (rad GM el t * spd GM el t) / kap ≤ 1 := by rw [div_le_one (by linarith)]; linarith
  rw [npArccos_some ⟨by linarith, hx1⟩]
  rfl

/-- The velocity the code computes. -/
theorem velocity (H : EllipseOK GM el u w) (t : ℝ) :
    orbitVel GM el t = some (
      (spd GM el t * sqrt (1 - (el.h / (rad GM el t * spd GM el t) / kap) ^ 2)) • (cos t • u + sin t • V3.cross w u) +
      (GM / el.h * (1 + el.e * cos t) / kap) • ((-sin t) • u + cos t • V3.cross w u)) := by
  have hr := H.rad_pos t; have hs := H.spd_pos t; have hh := H.hpos; have hk := kap_gt
  obtain ⟨q1, q2⟩ := H.ratio t
  unfold orbitVel
  rw [H.radius]
  simp only [bind, Option.bind, pure]
  rw [H.speedAngle_eq]
  simp only []
  rw [H.vel, one_mul, sin_arccos]
  have hx0 : 0 < el.h / (rad GM el t * spd GM el t) / kap := by positivity
  have hx1 : el.h / (rad GM el t * spd GM el t) / kap ≤ 1 := by rw [div_le_one (by linarith)]; linarith
  rw [cos_arccos (by linarith) hx1, ← H.ht]
  have : spd GM el t * (el.h / (rad GM el t * spd GM el t) / kap) = el.h / rad GM el t / kap := by field_simp
  rw [this]

/-- Length of a vector in the rotating frame. -/
theorem norm_polar (hu : V3.dot u u = 1) (hw : V3.dot w w = 1) (huw : V3.dot u w = 0) (p q t : ℝ) :
    V3.norm (p • (cos t • u + sin t • V3.cross w u) + q • ((-sin t) • u + cos t • V3.cross w u)) = sqrt (p ^ 2 + q ^ 2) := by
  set n := V3.cross w u with hn
  have hqq : V3.dot n n = 1 := by rw [hn, V3.dot_cross_self, hw, hu, V3.dot_comm, huw]; norm_num
  have heq : V3.dot u n = 0 := V3.dot_cross_right _ _
  have sc := sin_sq_add_cos_sq t
  unfold V3.norm
  congr 1
  have : V3.dot (p • (cos t • u + sin t • n) + q • ((-sin t) • u + cos t • n))
      (p • (cos t • u + sin t • n) + q • ((-sin t) • u + cos t • n)) =
      (p * cos t - q * sin t) ^ 2 * V3.dot u u + 2 * (p * cos t - q * sin t) * (p * sin t + q * cos t) * V3.dot u n +
        (p * sin t + q * cos t) ^ 2 * V3.dot n n := by
    simp only [V3.dot, V3.add_x, V3.add_y, V3.add_z, V3.smul_x, V3.smul_y, V3.smul_z]; ring
  rw [this, hu, heq, hqq]
  linear_combination (p ^ 2 + q ^ 2) * sc

/-- The computed speed is the vis-viva speed, at every anomaly. -/
theorem velocity_norm (H : EllipseOK GM el u w) (t : ℝ) : ∃ U, orbitVel GM el t = some U ∧ V3.norm U = spd GM el t := by
  refine ⟨_, H.velocity t, ?_⟩
  have hr := H.rad_pos t; have hs := H.spd_pos t; have hh := H.hpos; have hk := kap_gt
  obtain ⟨q1, q2⟩ := H.ratio t
  rw [norm_polar H.uu H.ww H.uw, ← H.ht]
  have hx0 : 0 < el.h / (rad GM el t * spd GM el t) / kap := by positivity
  have hx1 : el.h / (rad GM el t * spd GM el t) / kap ≤ 1 := by rw [div_le_one (by linarith)]; linarith
  have e1 : el.h / rad GM el t / kap = spd GM el t * (el.h / (rad GM el t * spd GM el t) / kap) := by field_simp
  rw [e1, mul_pow, mul_pow, sq_sqrt (by nlinarith)]
  rw [show spd GM el t ^ 2 * (1 - (el.h / (rad GM el t * spd GM el t) / kap) ^ 2) +
    spd GM el t ^ 2 * (el.h / (rad GM el t * spd GM el t) / kap) ^ 2 = spd GM el t ^ 2 by ring, sqrt_sq hs.le]

/-- At the apsides the computed velocity is the vis-viva speed along a fixed direction that misses the transverse
direction by `arccos(1/1.0000001)`. -/
theorem velocity_apsis (H : EllipseOK GM el u w) {t : ℝ} (hs : sin t = 0) :
    spd GM el t = GM / el.h * (1 + el.e * cos t) ∧
    orbitVel GM el t = some (spd GM el t • (sqrt (1 - (1 / kap) ^ 2) • (cos t • u) + (1 / kap) • (cos t • V3.cross w u))) := by
  have hr := H.rad_pos t; have hsp := H.spd_pos t; have hh := H.hpos; have hk := kap_gt
  have hd := H.den t; have hg := H.gm
  have e1 : spd GM el t = GM / el.h * (1 + el.e * cos t) := by
    unfold spd; rw [H.spd_sq, hs, mul_zero, zero_pow two_ne_zero, zero_add, sqrt_sq (by positivity)]
  have e2 : el.h / (rad GM el t * spd GM el t) = 1 := by
    rw [← div_div, H.ht, e1, div_self (by positivity)]
  refine ⟨e1, ?_⟩
  rw [H.velocity, e2, ← e1, hs]
  congr 1
  ext <;> simp only [V3.add_x, V3.add_y, V3.add_z, V3.smul_x, V3.smul_y, V3.smul_z] <;> ring

end EllipseOK

/-! ### Elements of a state -/

theorem triple_id (U R : V3) : V3.cross U (V3.cross R U) = V3.dot U U • R - V3.dot R U • U := by
  ext <;> simp only [V3.cross, V3.dot, V3.sub_x, V3.sub_y, V3.sub_z, V3.smul_x, V3.smul_y, V3.smul_z] <;> ring

theorem eccVec_eq {GM : ℝ} (hGM : 0 < GM) {R : V3} (U : V3) :
    (1 / GM) • ((V3.norm U ^ 2 - GM / V3.norm R) • R - V3.dot R U • U) = Spec.eccVec GM R U := by
  unfold Spec.eccVec
  rw [triple_id, V3.norm_sq]
  ext <;> simp only [V3.sub_x, V3.sub_y, V3.sub_z, V3.smul_x, V3.smul_y, V3.smul_z] <;> field_simp <;> ring

theorem ecc_dot_cross {GM : ℝ} (R U : V3) : V3.dot (Spec.eccVec GM R U) (V3.cross R U) = 0 := by
  unfold Spec.eccVec
  simp only [V3.dot, V3.cross, V3.sub_x, V3.sub_y, V3.sub_z, V3.smul_x, V3.smul_y, V3.smul_z]; ring

theorem ecc_dot_pos {GM : ℝ} {R : V3} (hR : R ≠ 0) (U : V3) :
    V3.norm R + V3.dot R (Spec.eccVec GM R U) = V3.norm (V3.cross R U) ^ 2 / GM := by
  have hn := V3.norm_pos hR
  have : V3.dot R (Spec.eccVec GM R U) = (1 / GM) * V3.dot R (V3.cross U (V3.cross R U)) - (1 / V3.norm R) * V3.dot R R := by
    unfold Spec.eccVec
    generalize V3.cross U (V3.cross R U) = X
    simp only [V3.dot, V3.sub_x, V3.sub_y, V3.sub_z, V3.smul_x, V3.smul_y, V3.smul_z]; ring
  have h2 : V3.dot R (V3.cross U (V3.cross R U)) = V3.dot (V3.cross R U) (V3.cross R U) := by
    simp only [V3.dot, V3.cross]; ring
  rw [this, h2, ← V3.norm_sq, ← V3.norm_sq]
  field_simp
  ring

theorem ecc_sq {GM : ℝ} (hGM : 0 < GM) {R : V3} (hR : R ≠ 0) (U : V3) :
    V3.dot (Spec.eccVec GM R U) (Spec.eccVec GM R U) =
      1 + 2 * Spec.energy GM R U * V3.norm (V3.cross R U) ^ 2 / GM ^ 2 := by
  have hn := V3.norm_pos hR
  have h1 : V3.dot (Spec.eccVec GM R U) (Spec.eccVec GM R U) =
      (1 / GM) ^ 2 * V3.dot (V3.cross U (V3.cross R U)) (V3.cross U (V3.cross R U)) -
      2 * (1 / GM) * (1 / V3.norm R) * V3.dot R (V3.cross U (V3.cross R U)) + (1 / V3.norm R) ^ 2 * V3.dot R R := by
    unfold Spec.eccVec
    generalize V3.cross U (V3.cross R U) = X
    simp only [V3.dot, V3.sub_x, V3.sub_y, V3.sub_z, V3.smul_x, V3.smul_y, V3.smul_z]; ring
  have h2 : V3.dot R (V3.cross U (V3.cross R U)) = V3.dot (V3.cross R U) (V3.cross R U) := by
    simp only [V3.dot, V3.cross]; ring
  have h3 : V3.dot U (V3.cross R U) = 0 := V3.dot_cross_right _ _
  rw [h1, h2, V3.dot_cross_self U, h3, ← V3.norm_sq R, ← V3.norm_sq U, ← V3.norm_sq (V3.cross R U)]
  unfold Spec.energy
  field_simp
  ring

/-- What the elements of a state satisfy. -/
structure StateCore (P : Planet) (R U : V3) (el : Elements) (u w : V3) : Prop where
  ok : EllipseOK P.GM el u w
  epos : 0 < el.e
  ha : el.a = -P.GM / (2 * Spec.energy P.GM R U)
  hh : el.h = V3.norm (V3.cross R U)
  he : Spec.eccVec P.GM R U = el.e • u
  hw : V3.cross R U = el.h • w
  ho : orient (V3.cross R U) u = some el.o
  r0 : 0 < V3.norm R

theorem elementsOf_core {P : Planet} {R U : V3} {fpa : ℝ} (hGM : 0 < P.GM) (hE : Spec.energy P.GM R U < 0)
    (hne : (V3.cross R U).x ≠ 0 ∨ (V3.cross R U).y ≠ 0) (hecc : Spec.eccVec P.GM R U ≠ 0)
    (hfpa : Planet.angMomScalar (V3.norm R) (V3.norm U) fpa = V3.norm (V3.cross R U)) :
    ∃ el u w, elementsOf P (V3.norm R) (V3.norm U) fpa R U = some el ∧ StateCore P R U el u w := by
  have hH0 : V3.cross R U ≠ 0 := by rintro h; rw [h] at hne; simp at hne
  have hR : R ≠ 0 := by
    rintro rfl; apply hH0; ext <;> simp [V3.cross]
  have hn := V3.norm_pos hR
  have hHp := V3.norm_pos hH0
  set H := V3.norm (V3.cross R U) with hHd
  set E := Spec.energy P.GM R U with hEd
  have hEs : P.energyScalar (V3.norm R) (V3.norm U) = E := by rw [energyScalar_eq]; rfl
  have hep := V3.norm_pos hecc
  set e := V3.norm (Spec.eccVec P.GM R U) with hed
  have he2 : e ^ 2 = 1 + 2 * E * H ^ 2 / P.GM ^ 2 := by rw [V3.norm_sq, ecc_sq hGM hR]
  have hneg : 2 * E * H ^ 2 / P.GM ^ 2 < 0 := by
    apply div_neg_of_neg_of_pos _ (by positivity)
    have : 0 < H ^ 2 := by positivity
    nlinarith
  have he1 : e < 1 := by
    have : e ^ 2 < 1 ^ 2 := by rw [he2]; linarith
    exact lt_of_pow_lt_pow_left₀ 2 zero_le_one this
  have hsma : P.semiMajorAxisScalar E = some (-P.GM / (2 * E)) := by
    unfold Planet.semiMajorAxisScalar; rw [if_neg hE.ne, Lits.l10]; congr 1; ring
  have hapos : 0 < -P.GM / (2 * E) := div_pos_of_neg_of_neg (by linarith) (by linarith)
  have hee : P.eccScalar H E = some e := by
    unfold Planet.eccScalar
    rw [Lits.l10, ← he2, npSqrt_some (by positivity), sqrt_sq hep.le]
  have hsq : -P.GM / (2 * E) * P.GM * (1 - e ^ 2) = H ^ 2 := by
    rw [he2]; have := hE.ne; field_simp; ring
  have hu1 := V3.unit_dot_self hecc
  set u := (1 / e) • Spec.eccVec P.GM R U with hud
  have heu : Spec.eccVec P.GM R U = e • u := by
    rw [hud, V3.smul_smul, mul_one_div_cancel hep.ne', V3.one_smul]
  have hpH : V3.dot u (V3.cross R U) = 0 := by rw [hud, V3.dot_smul_left, ecc_dot_cross, mul_zero]
  have hw1 := V3.unit_dot_self hH0
  obtain ⟨o, ho, h1, h2, -, -⟩ := orient_spec hu1 hpH hne
  have hel : elementsOf P (V3.norm R) (V3.norm U) fpa R U = some ⟨-P.GM / (2 * E), e, H, o⟩ := by
    unfold elementsOf
    dsimp only
    rw [hfpa, hEs, eccVec_eq hGM, hsma, hee]
    simp only [bind, Option.bind, pure]
    rw [hsq, npSqrt_some (by positivity), sqrt_sq hHp.le, npUnit_some hecc]
    simp only []
    rw [← hud, ho]
  refine ⟨_, u, (1 / H) • V3.cross R U, hel, ⟨⟨hGM, hapos, by simp only; linarith, he1, hHp, ?_, hu1, hw1, ?_, h1, h2⟩,
    hep, rfl, rfl, heu, ?_, ho, hn⟩⟩
  · simp only; rw [← hsq]; ring
  · rw [V3.dot_smul_right, hpH, mul_zero]
  · simp only; rw [V3.smul_smul, mul_one_div_cancel hHp.ne', V3.one_smul]

namespace StateCore

variable {P : Planet} {R U : V3} {el : Elements} {u w : V3}

theorem Rw (S : StateCore P R U el u w) : V3.dot R w = 0 := by
  have h1 := V3.dot_cross_left R U
  rw [S.hw, V3.dot_smul_right] at h1
  exact (mul_eq_zero.mp h1).resolve_left S.ok.hpos.ne'

/-- Orbit equation at the state itself. -/
theorem cosnu (S : StateCore P R U el u w) : el.e * V3.dot R u = el.h ^ 2 / P.GM - V3.norm R := by
  have hR : R ≠ 0 := by rintro rfl; have := S.r0; rw [V3.norm_eq_zero.mpr rfl] at this; exact lt_irrefl _ this
  have h1 := ecc_dot_pos (GM := P.GM) hR U
  rw [S.he, V3.dot_smul_right, ← S.hh] at h1
  linarith

theorem sinnu (S : StateCore P R U el u w) : el.e * V3.dot R (V3.cross w u) = el.h / P.GM * V3.dot R U := by
  have hg := S.ok.gm
  have hh := S.ok.hpos
  have h1 : V3.dot R (V3.cross (V3.cross R U) (Spec.eccVec P.GM R U)) = el.h ^ 2 / P.GM * V3.dot R U := by
    have e1 : V3.dot R (V3.cross (V3.cross R U) (Spec.eccVec P.GM R U)) =
        (1 / P.GM) * V3.dot R (V3.cross (V3.cross R U) (V3.cross U (V3.cross R U))) -
        (1 / V3.norm R) * V3.dot R (V3.cross (V3.cross R U) R) := by
      unfold Spec.eccVec
      generalize V3.cross U (V3.cross R U) = X
      generalize V3.cross R U = Y
      simp only [V3.dot, V3.cross, V3.sub_x, V3.sub_y, V3.sub_z, V3.smul_x, V3.smul_y, V3.smul_z]; ring
    have e2 : V3.dot R (V3.cross (V3.cross R U) R) = 0 := V3.dot_cross_right _ _
    have e3 : V3.dot R (V3.cross (V3.cross R U) (V3.cross U (V3.cross R U))) =
        V3.dot (V3.cross R U) (V3.cross R U) * V3.dot R U - V3.dot (V3.cross R U) U * V3.dot R (V3.cross R U) := by
      generalize V3.cross R U = Y
      simp only [V3.dot, V3.cross]; ring
    rw [e1, e2, e3, V3.dot_cross_left, ← V3.norm_sq, ← S.hh]
    field_simp
    ring
  rw [S.he, S.hw, V3.cross_smul_left, V3.cross_smul_right, V3.dot_smul_right, V3.dot_smul_right] at h1
  have : el.h * (el.e * V3.dot R (V3.cross w u)) = el.h * (el.h / P.GM * V3.dot R U) := by rw [h1]; ring
  exact mul_left_cancel₀ hh.ne' this

/-- A state moving outward is on the orbit at the anomaly `arccos((h²/(GM r) - 1)/e)`. -/
theorem on_orbit (S : StateCore P R U el u w) (hout : 0 ≤ V3.dot R U) :
    ∃ t, 0 ≤ t ∧ t ≤ π ∧ npArccos ((el.h ^ 2 / (P.GM * V3.norm R) - 1) * (1 / el.e)) = some t ∧
      cPos (el.h ^ 2 / P.GM) el.e u (V3.cross w u) t = R := by
  have hg := S.ok.gm; have hh := S.ok.hpos; have he := S.epos; have hr := S.r0
  have hc := S.cosnu
  set c := V3.dot R u / V3.norm R with hcd
  have hce : (el.h ^ 2 / (P.GM * V3.norm R) - 1) * (1 / el.e) = c := by
    have : V3.dot R u = (el.h ^ 2 / P.GM - V3.norm R) / el.e := by rw [← hc]; field_simp
    rw [hcd, this]; field_simp
  have hdec := plane_decomp S.ok.uu S.ok.ww S.ok.uw S.Rw
  have hqq : V3.dot (V3.cross w u) (V3.cross w u) = 1 := by
    rw [V3.dot_cross_self, S.ok.ww, S.ok.uu, V3.dot_comm, S.ok.uw]; norm_num
  have huq : V3.dot u (V3.cross w u) = 0 := V3.dot_cross_right _ _
  have hsum : V3.dot R u ^ 2 + V3.dot R (V3.cross w u) ^ 2 = V3.norm R ^ 2 := by
    rw [V3.norm_sq]
    conv_rhs => rw [hdec]
    generalize V3.dot R u = p
    generalize V3.dot R (V3.cross w u) = q
    generalize V3.cross w u = n at *
    have : V3.dot (p • u + q • n) (p • u + q • n) = p ^ 2 * V3.dot u u + 2 * p * q * V3.dot u n + q ^ 2 * V3.dot n n := by
      simp only [V3.dot, V3.add_x, V3.add_y, V3.add_z, V3.smul_x, V3.smul_y, V3.smul_z]; ring
    rw [this, S.ok.uu, huq, hqq]; ring
  have hs0 : 0 ≤ V3.dot R (V3.cross w u) := by
    have h1 := S.sinnu
    have : 0 ≤ el.e * V3.dot R (V3.cross w u) := by rw [h1]; positivity
    exact nonneg_of_mul_nonneg_right this he
  have hc2 : c ^ 2 + (V3.dot R (V3.cross w u) / V3.norm R) ^ 2 = 1 := by
    rw [hcd, div_pow, div_pow, ← add_div, hsum, div_self (by positivity)]
  have hcb : -1 ≤ c ∧ c ≤ 1 := by
    constructor <;> nlinarith [sq_nonneg (V3.dot R (V3.cross w u) / V3.norm R)]
  refine ⟨arccos c, arccos_nonneg _, arccos_le_pi _, by rw [hce, npArccos_some hcb], ?_⟩
  have hcos : cos (arccos c) = c := cos_arccos hcb.1 hcb.2
  have hsin : sin (arccos c) = V3.dot R (V3.cross w u) / V3.norm R := by
    rw [sin_arccos, show 1 - c ^ 2 = (V3.dot R (V3.cross w u) / V3.norm R) ^ 2 by linarith, sqrt_sq (by positivity)]
  unfold cPos
  rw [hcos, hsin]
  have hden : el.h ^ 2 / P.GM / (1 + el.e * c) = V3.norm R := by
    have hd := S.ok.den (arccos c)
    rw [hcos] at hd
    rw [div_eq_iff hd.ne', hcd]
    field_simp
    field_simp at hc
    linarith
  rw [hden]
  conv_rhs => rw [hdec]
  rw [hcd]
  generalize V3.dot R (V3.cross w u) = q
  generalize V3.dot R u = p
  ext <;> simp only [V3.add_x, V3.add_y, V3.add_z, V3.smul_x, V3.smul_y, V3.smul_z] <;> field_simp

end StateCore

end AMAT
