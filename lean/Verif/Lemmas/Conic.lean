import Verif.Model.Conic
import Verif.Spec.Rotation
import Verif.Lemmas.Lits
import Mathlib.Tactic.FieldSimp
import Mathlib.Tactic.LinearCombination
import Mathlib.Analysis.SpecialFunctions.Trigonometric.Inverse

/-
Helper lemmas: rotations, `arctan2`, recovery of a frame from its orientation angles, and motion on a conic.
-/

noncomputable section

namespace AMAT

open Real

/-! ### Vectors -/

namespace V3

theorem norm_pos {a : V3} (h : a ≠ 0) : 0 < norm a :=
  lt_of_le_of_ne (norm_nonneg a) (fun h0 => h (norm_eq_zero.mp h0.symm))

theorem dot_unit_le {a b : V3} (ha : dot a a = 1) (hb : dot b b = 1) : -1 ≤ dot a b ∧ dot a b ≤ 1 := by
  have h := abs_dot_le a b
  have e1 : norm a = 1 := norm_eq_of_sq zero_le_one (by rw [ha]; norm_num)
  have e2 : norm b = 1 := norm_eq_of_sq zero_le_one (by rw [hb]; norm_num)
  rw [e1, e2, mul_one] at h
  exact abs_le.mp h

theorem ne_zero_of_dot_one {a : V3} (ha : dot a a = 1) : a ≠ 0 := by
  rintro rfl
  simp [dot] at ha

theorem norm_of_dot_one {a : V3} (ha : dot a a = 1) : norm a = 1 :=
  norm_eq_of_sq zero_le_one (by rw [ha]; norm_num)

theorem unit_dot_self {a : V3} (h : a ≠ 0) : dot ((1 / norm a) • a) ((1 / norm a) • a) = 1 := by
  have hp := norm_pos h
  have : dot ((1 / norm a) • a) ((1 / norm a) • a) = 1 / norm a ^ 2 * dot a a := by
    simp only [dot, smul_x, smul_y, smul_z]; field_simp
  rw [this, ← norm_sq]; field_simp

theorem smul_smul (c d : ℝ) (a : V3) : c • d • a = (c * d) • a := by
  ext <;> simp only [smul_x, smul_y, smul_z] <;> ring

theorem one_smul (a : V3) : (1:ℝ) • a = a := by
  ext <;> simp

theorem dot_smul_left (c : ℝ) (a b : V3) : dot (c • a) b = c * dot a b := by
  simp only [dot, smul_x, smul_y, smul_z]; ring

theorem dot_smul_right (c : ℝ) (a b : V3) : dot a (c • b) = c * dot a b := by
  simp only [dot, smul_x, smul_y, smul_z]; ring

theorem cross_smul_left (c : ℝ) (a b : V3) : cross (c • a) b = c • cross a b := by
  ext <;> simp only [cross, smul_x, smul_y, smul_z] <;> ring

theorem cross_smul_right (c : ℝ) (a b : V3) : cross a (c • b) = c • cross a b := by
  ext <;> simp only [cross, smul_x, smul_y, smul_z] <;> ring

end V3

theorem npUnit_some {a : V3} (h : a ≠ 0) : npUnit a = some ((1 / a.norm) • a) := by
  unfold npUnit; rw [if_neg (V3.norm_pos h).ne']

theorem npUnit_zero : npUnit 0 = none := by
  unfold npUnit; rw [if_pos (V3.norm_eq_zero.mpr rfl)]

theorem npArccos_some {x : ℝ} (h : -1 ≤ x ∧ x ≤ 1) : npArccos x = some (arccos x) := by
  unfold npArccos; rw [if_pos h]

theorem npDiv_some {x y : ℝ} (h : y ≠ 0) : npDiv x y = some (x / y) := by
  unfold npDiv; rw [if_neg h]

theorem npSqrt_some {x : ℝ} (h : 0 ≤ x) : npSqrt x = some (sqrt x) := by
  unfold npSqrt; rw [if_pos h]

/-! ### Rotations -/

open Spec in
theorem R1_rot (t : ℝ) : IsRotation (R1 t).mulVec := by
  have h := sin_sq_add_cos_sq t
  constructor <;> intros <;> simp only [Mat3.mulVec, R1, V3.dot, V3.cross, V3.ext_iff, V3.add_x, V3.add_y, V3.add_z, V3.smul_x, V3.smul_y,
    V3.smul_z] <;> grind

open Spec in
theorem R2_rot (t : ℝ) : IsRotation (R2 t).mulVec := by
  have h := sin_sq_add_cos_sq t
  constructor <;> intros <;> simp only [Mat3.mulVec, R2, V3.dot, V3.cross, V3.ext_iff, V3.add_x, V3.add_y, V3.add_z, V3.smul_x, V3.smul_y,
    V3.smul_z] <;> grind

open Spec in
theorem R3_rot (t : ℝ) : IsRotation (R3 t).mulVec := by
  have h := sin_sq_add_cos_sq t
  constructor <;> intros <;> simp only [Mat3.mulVec, R3, V3.dot, V3.cross, V3.ext_iff, V3.add_x, V3.add_y, V3.add_z, V3.smul_x, V3.smul_y,
    V3.smul_z] <;> grind

theorem mul_mulVec (M N : Mat3) (v : V3) : (M.mul N).mulVec v = M.mulVec (N.mulVec v) := by
  ext <;> simp only [Mat3.mul, Mat3.mulVec, Mat3.transpose, V3.dot] <;> ring

open Spec in
theorem IsRotation.comp {f g : V3 → V3} (hf : IsRotation f) (hg : IsRotation g) : IsRotation (fun v => f (g v)) := by
  constructor <;> intros
  · simp only [hg.add, hf.add]
  · simp only [hg.smul, hf.smul]
  · simp only [hf.dot, hg.dot]
  · simp only [hg.cross, hf.cross]

theorem IsRotation.norm {f : V3 → V3} (hf : Spec.IsRotation f) (v : V3) : V3.norm (f v) = V3.norm v := by
  unfold V3.norm; rw [hf.dot]

/-! ### `arctan2` -/

theorem arctan2_cos (y x : ℝ) : sqrt (x ^ 2 + y ^ 2) * cos (arctan2 y x) = x := by
  have := Complex.norm_mul_cos_arg ⟨x, y⟩
  rw [Complex.norm_def, Complex.normSq_mk] at this
  unfold arctan2
  rw [show x ^ 2 + y ^ 2 = x * x + y * y by ring]
  exact this

theorem arctan2_sin (y x : ℝ) : sqrt (x ^ 2 + y ^ 2) * sin (arctan2 y x) = y := by
  have := Complex.norm_mul_sin_arg ⟨x, y⟩
  rw [Complex.norm_def, Complex.normSq_mk] at this
  unfold arctan2
  rw [show x ^ 2 + y ^ 2 = x * x + y * y by ring]
  exact this

/-! ### Orientation angles -/

/-- `orient` recovers the frame: in the plane normal to `hVec`, an angle `t` from `eUnit`. -/
theorem orient_spec {hVec eU : V3} (he : V3.dot eU eU = 1) (hp : V3.dot eU hVec = 0) (hn : hVec.x ≠ 0 ∨ hVec.y ≠ 0) :
    ∃ o, orient hVec eU = some o ∧ (∀ t, conicUnit o (t + o.omega) =
        cos t • eU + sin t • V3.cross ((1 / V3.norm hVec) • hVec) eU) ∧
      (∀ vr vt t, conicVel vr vt o t = vr • (cos t • eU + sin t • V3.cross ((1 / V3.norm hVec) • hVec) eU) +
        vt • ((-sin t) • eU + cos t • V3.cross ((1 / V3.norm hVec) • hVec) eU)) ∧
      0 < o.i ∧ o.i < π := by
  have hne : hVec ≠ 0 := by
    rintro rfl
    simp at hn
  have hN := V3.norm_pos hne
  set w : V3 := (1 / V3.norm hVec) • hVec with hw
  have hw1 : V3.dot w w = 1 := V3.unit_dot_self hne
  have hew : V3.dot eU w = 0 := by rw [hw, V3.dot_smul_right, hp, mul_zero]
  have hsum : 0 < hVec.x ^ 2 + hVec.y ^ 2 := by
    rcases hn with h | h
    · have := sq_pos_of_ne_zero h; positivity
    · have := sq_pos_of_ne_zero h; positivity
  have hs0 : 0 < w.x ^ 2 + w.y ^ 2 := by
    simp only [hw, V3.smul_x, V3.smul_y]
    have : (1 / V3.norm hVec * hVec.x) ^ 2 + (1 / V3.norm hVec * hVec.y) ^ 2 = (1 / V3.norm hVec) ^ 2 * (hVec.x ^ 2 + hVec.y ^ 2) := by ring
    rw [this]; positivity
  set s := sqrt (w.x ^ 2 + w.y ^ 2) with hs
  have hsp : 0 < s := sqrt_pos.mpr hs0
  have hs2 : s ^ 2 = w.x ^ 2 + w.y ^ 2 := sq_sqrt hs0.le
  simp only [V3.dot] at he hw1 hew
  have hwz : -1 ≤ w.z ∧ w.z ≤ 1 := by
    constructor <;> nlinarith [sq_nonneg w.x, sq_nonneg w.y]
  -- the node vector
  have hcr : V3.cross ⟨0, 0, 1⟩ hVec = (⟨-hVec.y, hVec.x, 0⟩ : V3) := by
    ext <;> simp [V3.cross]
  have hcn : V3.norm (⟨-hVec.y, hVec.x, 0⟩ : V3) = V3.norm hVec * s := by
    apply V3.norm_eq_of_sq (by positivity)
    rw [mul_pow, hs2]
    simp only [V3.dot, hw, V3.smul_x, V3.smul_y]
    field_simp; ring
  have hcne : (⟨-hVec.y, hVec.x, 0⟩ : V3) ≠ 0 := by
    intro h0
    rw [h0, V3.norm_eq_zero.mpr rfl] at hcn
    have : 0 < V3.norm hVec * s := by positivity
    linarith
  have hnu : npUnit (V3.cross ⟨0, 0, 1⟩ hVec) = some ⟨-w.y / s, w.x / s, 0⟩ := by
    rw [hcr, npUnit_some hcne, hcn]
    congr 1
    ext <;> simp only [V3.smul_x, V3.smul_y, V3.smul_z, hw, mul_zero] <;> field_simp
  have hab : (w.x / s) ^ 2 + (-w.y / s) ^ 2 = 1 := by
    field_simp; linarith
  have hN1 : -1 ≤ -w.y / s ∧ -w.y / s ≤ 1 := by
    constructor <;> nlinarith [sq_nonneg (w.x / s)]
  -- argument of periapsis
  set x := V3.dot ⟨-w.y / s, w.x / s, 0⟩ eU with hx
  set y := eU.z / s with hy
  have hx' : x = (-w.y * eU.x + w.x * eU.y) / s := by
    rw [hx]; simp only [V3.dot]; field_simp; ring
  have hxy : x ^ 2 + y ^ 2 = 1 := by
    rw [hx', hy]
    field_simp
    rw [hs2]
    grind
  have hx1 : -1 ≤ x ∧ x ≤ 1 := by constructor <;> nlinarith [sq_nonneg y]
  set i := arccos w.z with hi
  set Om := (if (w.x / s) ≥ 0 then arccos (-w.y / s) else 2 * π - arccos (-w.y / s)) with hOm
  set om := (if eU.z ≥ 0 then arccos x else 2 * π - arccos x) with hom
  have ho : orient hVec eU = some ⟨i, Om, om⟩ := by
    unfold orient
    rw [npUnit_some hne, hnu]
    simp only [bind, Option.bind, pure]
    rw [← hw, npArccos_some hwz]
    simp only []
    rw [npArccos_some hN1]
    simp only []
    rw [npArccos_some hx1]
  have ci : cos i = w.z := cos_arccos hwz.1 hwz.2
  have si : sin i = s := by
    rw [hi, sin_arccos, hs]; congr 1; linarith
  have cO : cos Om = -w.y / s := by
    rw [hOm]; split_ifs
    · exact cos_arccos hN1.1 hN1.2
    · rw [cos_two_pi_sub]; exact cos_arccos hN1.1 hN1.2
  have sO : sin Om = w.x / s := by
    have e : 1 - (-w.y / s) ^ 2 = (w.x / s) ^ 2 := by linarith
    rw [hOm]; split_ifs with hc
    · rw [sin_arccos, e, sqrt_sq hc]
    · rw [sin_two_pi_sub, sin_arccos, e, sqrt_sq_eq_abs, abs_of_neg (not_le.mp hc)]; ring
  have co : cos om = x := by
    rw [hom]; split_ifs
    · exact cos_arccos hx1.1 hx1.2
    · rw [cos_two_pi_sub]; exact cos_arccos hx1.1 hx1.2
  have so : sin om = y := by
    have e : 1 - x ^ 2 = y ^ 2 := by linarith
    rw [hom]; split_ifs with hc
    · rw [sin_arccos, e, sqrt_sq (div_nonneg hc hsp.le)]
    · rw [sin_two_pi_sub, sin_arccos, e, sqrt_sq_eq_abs, abs_of_neg (div_neg_of_neg_of_pos (not_le.mp hc) hsp)]; ring
  -- the two in-plane directions
  have e0 : conicUnit ⟨i, Om, om⟩ om = eU := by
    ext <;> simp only [conicUnit, ci, si, cO, sO, co, so, hx', hy] <;> field_simp <;> rw [hs2] <;> grind
  have q0 : conicUnit ⟨i, Om, om⟩ (om + π / 2) = V3.cross w eU := by
    ext <;> simp only [conicUnit, sin_add_pi_div_two, cos_add_pi_div_two, ci, si, cO, sO, co, so, hx', hy, V3.cross] <;> field_simp <;>
      grind
  have lin : ∀ t, conicUnit ⟨i, Om, om⟩ (t + om) = cos t • conicUnit ⟨i, Om, om⟩ om + sin t • conicUnit ⟨i, Om, om⟩ (om + π / 2) := by
    intro t
    ext <;> simp only [conicUnit, cos_add, sin_add, cos_pi_div_two, sin_pi_div_two, V3.add_x, V3.add_y, V3.add_z,
      V3.smul_x, V3.smul_y, V3.smul_z] <;> ring
  have linv : ∀ vr vt t, conicVel vr vt ⟨i, Om, om⟩ t = vr • (cos t • conicUnit ⟨i, Om, om⟩ om + sin t • conicUnit ⟨i, Om, om⟩ (om + π / 2)) +
      vt • ((-sin t) • conicUnit ⟨i, Om, om⟩ om + cos t • conicUnit ⟨i, Om, om⟩ (om + π / 2)) := by
    intro vr vt t
    ext <;> simp only [conicVel, conicUnit, cos_add, sin_add, cos_pi_div_two, sin_pi_div_two, V3.add_x, V3.add_y, V3.add_z,
      V3.smul_x, V3.smul_y, V3.smul_z] <;> ring
  refine ⟨⟨i, Om, om⟩, ho, ?_, ?_, ?_, ?_⟩
  · intro t; rw [lin t, e0, q0]
  · intro vr vt t; rw [linv, e0, q0]
  · apply arccos_pos.mpr
    by_contra hc
    have h1 : w.z = 1 := le_antisymm hwz.2 (not_lt.mp hc)
    have h2 : w.z * w.z = 1 := by rw [h1, mul_one]
    have h3 : w.x ^ 2 + w.y ^ 2 = 0 := by rw [sq, sq]; linarith only [h2, hw1]
    exact hs0.ne' h3
  · refine lt_of_le_of_ne (arccos_le_pi _) (fun h => ?_)
    have := arccos_eq_pi.mp h
    have h1 : w.z = -1 := le_antisymm this hwz.1
    have h2 : w.z * w.z = 1 := by rw [h1]; norm_num
    have h3 : w.x ^ 2 + w.y ^ 2 = 0 := by rw [sq, sq]; linarith only [h2, hw1]
    exact hs0.ne' h3

/-- In the equatorial plane the node is undefined. -/
theorem orient_equatorial {hVec eU : V3} (hx : hVec.x = 0) (hy : hVec.y = 0) : orient hVec eU = none := by
  have hcr : V3.cross ⟨0, 0, 1⟩ hVec = 0 := by
    ext <;> simp [V3.cross, hx, hy]
  unfold orient
  rw [hcr, npUnit_zero]
  cases npUnit hVec with
  | none => rfl
  | some u => simp only [bind, Option.bind]; cases npArccos u.z <;> rfl

/-! ### Motion on a conic -/

/-- In an orthonormal frame `(eU, w × eU, w)`: the state at true anomaly `t`. -/
theorem conic_state {GM h e t r vr vt : ℝ} {eU w : V3} (hGM : 0 < GM) (hh : 0 < h) (he : V3.dot eU eU = 1)
    (hw : V3.dot w w = 1) (hew : V3.dot eU w = 0) (hc : 0 < 1 + e * cos t) (hr : r = h ^ 2 / GM / (1 + e * cos t))
    (hvr : vr = GM / h * e * sin t) (hvt : vt = GM / h * (1 + e * cos t)) :
    let R := r • (cos t • eU + sin t • V3.cross w eU)
    let U := vr • (cos t • eU + sin t • V3.cross w eU) + vt • ((-sin t) • eU + cos t • V3.cross w eU)
    0 < r ∧ V3.norm R = r ∧ V3.cross R U = h • w ∧ Spec.eccVec GM R U = e • eU ∧
      V3.dot U U = vr ^ 2 + vt ^ 2 ∧ V3.dot R U = r * vr ∧ V3.dot R eU = r * cos t := by
  intro R U
  have hrp : 0 < r := by rw [hr]; positivity
  have sc := sin_sq_add_cos_sq t
  set q := V3.cross w eU with hq
  have hqq : V3.dot q q = 1 := by rw [hq, V3.dot_cross_self, hw, he, V3.dot_comm, hew]; norm_num
  have heq : V3.dot eU q = 0 := V3.dot_cross_right _ _
  have hcr : V3.cross eU q = w := by
    have : V3.cross eU q = V3.dot eU eU • w - V3.dot eU w • eU := by
      ext <;> simp only [hq, V3.cross, V3.dot, V3.sub_x, V3.sub_y, V3.sub_z, V3.smul_x, V3.smul_y, V3.smul_z] <;> ring
    rw [this, he, hew]
    ext <;> simp
  have hqw : V3.cross q w = eU := by
    have : V3.cross q w = V3.dot w w • eU - V3.dot eU w • w := by
      ext <;> simp only [hq, V3.cross, V3.dot, V3.sub_x, V3.sub_y, V3.sub_z, V3.smul_x, V3.smul_y, V3.smul_z] <;> ring
    rw [this, hw, hew]
    ext <;> simp
  have hwe : V3.cross w eU = q := rfl
  -- bilinear expansions
  have d2 : ∀ a b c d : ℝ, V3.dot (a • eU + b • q) (c • eU + d • q) = a * c + b * d := by
    intro a b c d
    have : V3.dot (a • eU + b • q) (c • eU + d • q) = a * c * V3.dot eU eU + (a * d + b * c) * V3.dot eU q + b * d * V3.dot q q := by
      simp only [V3.dot, V3.add_x, V3.add_y, V3.add_z, V3.smul_x, V3.smul_y, V3.smul_z]; ring
    rw [this, he, heq, hqq]; ring
  have c2 : ∀ a b c d : ℝ, V3.cross (a • eU + b • q) (c • eU + d • q) = (a * d - b * c) • w := by
    intro a b c d
    have : V3.cross (a • eU + b • q) (c • eU + d • q) = (a * d - b * c) • V3.cross eU q := by
      ext <;> simp only [V3.cross, V3.add_x, V3.add_y, V3.add_z, V3.smul_x, V3.smul_y, V3.smul_z] <;> ring
    rw [this, hcr]
  have c3 : ∀ a b k : ℝ, V3.cross (a • eU + b • q) (k • w) = (b * k) • eU + (-(a * k)) • q := by
    intro a b k
    have : V3.cross (a • eU + b • q) (k • w) = (b * k) • V3.cross q w + (-(a * k)) • V3.cross w eU := by
      ext <;> simp only [V3.cross, V3.add_x, V3.add_y, V3.add_z, V3.smul_x, V3.smul_y, V3.smul_z] <;> ring
    rw [this, hqw, ← hq]
  have eR : R = (r * cos t) • eU + (r * sin t) • q := by
    ext <;> simp only [R, V3.add_x, V3.add_y, V3.add_z, V3.smul_x, V3.smul_y, V3.smul_z] <;> ring
  have eU' : U = (vr * cos t - vt * sin t) • eU + (vr * sin t + vt * cos t) • q := by
    ext <;> simp only [U, V3.add_x, V3.add_y, V3.add_z, V3.smul_x, V3.smul_y, V3.smul_z] <;> ring
  have hn : V3.norm R = r := by
    apply V3.norm_eq_of_sq hrp.le
    rw [eR, d2]; linear_combination r ^ 2 * sc
  have hrvt : r * vt = h := by rw [hr, hvt]; field_simp
  have hcross : V3.cross R U = h • w := by
    rw [eR, eU', c2]
    congr 1
    rw [← hrvt]
    linear_combination r * vt * sc
  refine ⟨hrp, hn, hcross, ?_, ?_, ?_, ?_⟩
  · unfold Spec.eccVec
    rw [hcross, hn, eU', c3, eR]
    have e1 : (1 / GM) * ((vr * sin t + vt * cos t) * h) - (1 / r) * (r * cos t) = e := by
      rw [hvr, hvt]; field_simp; linear_combination e * sc
    have e2 : (1 / GM) * (-((vr * cos t - vt * sin t) * h)) - (1 / r) * (r * sin t) = 0 := by
      rw [hvr, hvt]; field_simp; ring
    have : ∀ a b c d k1 k2 : ℝ, k1 • (a • eU + b • q) - k2 • (c • eU + d • q) = (k1 * a - k2 * c) • eU + (k1 * b - k2 * d) • q := by
      intro a b c d k1 k2
      ext <;> simp only [V3.add_x, V3.add_y, V3.add_z, V3.sub_x, V3.sub_y, V3.sub_z, V3.smul_x, V3.smul_y, V3.smul_z] <;> ring
    rw [this, e1, e2]
    ext <;> simp
  · rw [eU', d2]; linear_combination (vr ^ 2 + vt ^ 2) * sc
  · rw [eR, eU', d2]; linear_combination r * vr * sc
  · have := d2 (r * cos t) (r * sin t) 1 0
    rw [eR]
    have e1 : eU = (1:ℝ) • eU + (0:ℝ) • q := by ext <;> simp
    rw [e1]
    have e2 : (r * cos t) • ((1:ℝ) • eU + (0:ℝ) • q) + (r * sin t) • q = (r * cos t) • eU + (r * sin t) • q := by
      ext <;> simp
    rw [e2, this]; ring

end AMAT
