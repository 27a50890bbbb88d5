import Verif.Lemmas.Conic
import Verif.Spec.TwoBody
import Mathlib.Analysis.SpecialFunctions.Trigonometric.Deriv
import Mathlib.Analysis.Calculus.Deriv.Inv
import Mathlib.Analysis.Calculus.Deriv.Add
import Mathlib.Analysis.Calculus.Deriv.Mul

/-
The conic parametrised by true anomaly solves the two-body equations.
-/

noncomputable section

namespace AMAT

open Real

/-- Position on the conic in the frame `(u, q)`. -/
def cPos (p e : ℝ) (u q : V3) (t : ℝ) : V3 := (p / (1 + e * cos t)) • (cos t • u + sin t • q)

/-- Velocity on the conic in the frame `(u, q)`. -/
def cVel (k e : ℝ) (u q : V3) (t : ℝ) : V3 := k • ((-sin t) • u + (e + cos t) • q)

theorem cVel_eq (k e : ℝ) (u q : V3) (t : ℝ) :
    (k * e * sin t) • (cos t • u + sin t • q) + (k * (1 + e * cos t)) • ((-sin t) • u + cos t • q) = cVel k e u q t := by
  have sc := sin_sq_add_cos_sq t
  unfold cVel
  ext <;> simp only [V3.add_x, V3.add_y, V3.add_z, V3.smul_x, V3.smul_y, V3.smul_z]
  · linear_combination (k * e * q.x) * sc
  · linear_combination (k * e * q.y) * sc
  · linear_combination (k * e * q.z) * sc

theorem cPos_deriv {p e t a b : ℝ} (hc : 1 + e * cos t ≠ 0) :
    HasDerivAt (fun s => p / (1 + e * cos s) * (cos s * a + sin s * b))
      (p / (1 + e * cos t) ^ 2 * (-sin t * a + (e + cos t) * b)) t := by
  have h1 : HasDerivAt (fun s => 1 + e * cos s) (e * -sin t) t := ((hasDerivAt_cos t).const_mul e).const_add 1
  have h2 : HasDerivAt (fun s => p / (1 + e * cos s)) _ t := (hasDerivAt_const t p).fun_div h1 hc
  have h3 : HasDerivAt (fun s => cos s * a + sin s * b) (-sin t * a + cos t * b) t :=
    ((hasDerivAt_cos t).mul_const a).fun_add ((hasDerivAt_sin t).mul_const b)
  refine (h2.fun_mul h3).congr_deriv ?_
  have sc := sin_sq_add_cos_sq t
  field_simp
  linear_combination (p * e * b) * sc

theorem cVel_deriv (k e t a b : ℝ) :
    HasDerivAt (fun s => k * (-sin s * a + (e + cos s) * b)) (k * (-(cos t * a + sin t * b))) t := by
  have h1 : HasDerivAt (fun s => -sin s * a) (-cos t * a) t := ((hasDerivAt_sin t).fun_neg).mul_const a
  have h2 : HasDerivAt (fun s => (e + cos s) * b) (-sin t * b) t := ((hasDerivAt_cos t).const_add e).mul_const b
  refine ((h1.fun_add h2).const_mul k).congr_deriv ?_
  ring

/-- The conic with `p = h²/GM` is a two-body orbit. -/
theorem conic_twoBody {GM h e t : ℝ} {u w : V3} (hGM : 0 < GM) (hh : 0 < h) (hu : V3.dot u u = 1)
    (hw : V3.dot w w = 1) (huw : V3.dot u w = 0) (hc : 0 < 1 + e * cos t) :
    Spec.TwoBodyAt GM h (cPos (h ^ 2 / GM) e u (V3.cross w u)) (cVel (GM / h) e u (V3.cross w u)) t := by
  obtain ⟨hr, hn, -⟩ := conic_state (r := h ^ 2 / GM / (1 + e * cos t)) hGM hh hu hw huw hc rfl rfl rfl
  have hn' : V3.norm (cPos (h ^ 2 / GM) e u (V3.cross w u) t) = h ^ 2 / GM / (1 + e * cos t) := hn
  unfold Spec.TwoBodyAt
  rw [hn']
  have k1 : (h ^ 2 / GM / (1 + e * cos t)) ^ 2 / h * (GM / h) = h ^ 2 / GM / (1 + e * cos t) ^ 2 := by field_simp
  have k2 : (h ^ 2 / GM / (1 + e * cos t)) ^ 2 / h * (-GM / (h ^ 2 / GM / (1 + e * cos t)) ^ 3 * (h ^ 2 / GM / (1 + e * cos t))) =
      -(GM / h) := by field_simp
  refine ⟨⟨?_, ?_, ?_⟩, ⟨?_, ?_, ?_⟩⟩
  · refine (cPos_deriv (p := h ^ 2 / GM) (a := u.x) (b := (V3.cross w u).x) hc.ne').congr_deriv ?_
    rw [← k1]; simp only [cVel, V3.add_x, V3.smul_x]; ring
  · refine (cPos_deriv (p := h ^ 2 / GM) (a := u.y) (b := (V3.cross w u).y) hc.ne').congr_deriv ?_
    rw [← k1]; simp only [cVel, V3.add_y, V3.smul_y]; ring
  · refine (cPos_deriv (p := h ^ 2 / GM) (a := u.z) (b := (V3.cross w u).z) hc.ne').congr_deriv ?_
    rw [← k1]; simp only [cVel, V3.add_z, V3.smul_z]; ring
  · refine (cVel_deriv (GM / h) e t u.x (V3.cross w u).x).congr_deriv ?_
    simp only [cPos, V3.add_x, V3.smul_x]
    linear_combination (-(cos t * u.x + sin t * (V3.cross w u).x)) * k2
  · refine (cVel_deriv (GM / h) e t u.y (V3.cross w u).y).congr_deriv ?_
    simp only [cPos, V3.add_y, V3.smul_y]
    linear_combination (-(cos t * u.y + sin t * (V3.cross w u).y)) * k2
  · refine (cVel_deriv (GM / h) e t u.z (V3.cross w u).z).congr_deriv ?_
    simp only [cPos, V3.add_z, V3.smul_z]
    linear_combination (-(cos t * u.z + sin t * (V3.cross w u).z)) * k2

end AMAT
