import Mathlib.Analysis.Real.Sqrt
import Mathlib.Tactic.Ring
import Mathlib.Tactic.Positivity
import Mathlib.Tactic.LinearCombination
import Mathlib.Tactic.Linarith

/-
Plain three-dimensional vectors over `ℝ` with the usual operations; the vocabulary in which the
geometric specifications are written.
-/

noncomputable section

namespace AMAT

/-- A vector in ℝ³. -/
@[ext] structure V3 where
  x : ℝ
  y : ℝ
  z : ℝ

namespace V3

instance : Add V3 := ⟨fun a b => ⟨a.x + b.x, a.y + b.y, a.z + b.z⟩⟩
instance : Sub V3 := ⟨fun a b => ⟨a.x - b.x, a.y - b.y, a.z - b.z⟩⟩
instance : Neg V3 := ⟨fun a => ⟨-a.x, -a.y, -a.z⟩⟩
instance : SMul ℝ V3 := ⟨fun c a => ⟨c * a.x, c * a.y, c * a.z⟩⟩
instance : Zero V3 := ⟨⟨0, 0, 0⟩⟩

@[simp] theorem add_x (a b : V3) : (a + b).x = a.x + b.x := rfl
@[simp] theorem add_y (a b : V3) : (a + b).y = a.y + b.y := rfl
@[simp] theorem add_z (a b : V3) : (a + b).z = a.z + b.z := rfl
@[simp] theorem sub_x (a b : V3) : (a - b).x = a.x - b.x := rfl
@[simp] theorem sub_y (a b : V3) : (a - b).y = a.y - b.y := rfl
@[simp] theorem sub_z (a b : V3) : (a - b).z = a.z - b.z := rfl
@[simp] theorem neg_x (a : V3) : (-a).x = -a.x := rfl
@[simp] theorem neg_y (a : V3) : (-a).y = -a.y := rfl
@[simp] theorem neg_z (a : V3) : (-a).z = -a.z := rfl
@[simp] theorem smul_x (c : ℝ) (a : V3) : (c • a).x = c * a.x := rfl
@[simp] theorem smul_y (c : ℝ) (a : V3) : (c • a).y = c * a.y := rfl
@[simp] theorem smul_z (c : ℝ) (a : V3) : (c • a).z = c * a.z := rfl
@[simp] theorem zero_x : (0 : V3).x = 0 := rfl
@[simp] theorem zero_y : (0 : V3).y = 0 := rfl
@[simp] theorem zero_z : (0 : V3).z = 0 := rfl

/-- Scalar product (`np.dot`). -/
def dot (a b : V3) : ℝ := a.x * b.x + a.y * b.y + a.z * b.z

/-- Vector product (`np.cross`). -/
def cross (a b : V3) : V3 :=
  ⟨a.y * b.z - a.z * b.y, a.z * b.x - a.x * b.z, a.x * b.y - a.y * b.x⟩

/-- Euclidean length (`np.linalg.norm`). -/
def norm (a : V3) : ℝ := Real.sqrt (dot a a)

theorem dot_self_nonneg (a : V3) : 0 ≤ dot a a := by
  unfold dot; nlinarith [sq_nonneg a.x, sq_nonneg a.y, sq_nonneg a.z]

theorem norm_nonneg (a : V3) : 0 ≤ norm a := Real.sqrt_nonneg _

theorem norm_sq (a : V3) : norm a ^ 2 = dot a a := Real.sq_sqrt (dot_self_nonneg a)

theorem norm_eq_of_sq {a : V3} {c : ℝ} (hc : 0 ≤ c) (h : dot a a = c ^ 2) : norm a = c := by
  unfold norm; rw [h, Real.sqrt_sq hc]

theorem dot_comm (a b : V3) : dot a b = dot b a := by unfold dot; ring

theorem dot_sub_smul (a b c : V3) (k : ℝ) : dot (a - k • b) c = dot a c - k * dot c b := by
  simp only [dot, sub_x, sub_y, sub_z, smul_x, smul_y, smul_z]; ring

/-- Lagrange's identity. -/
theorem dot_cross_self (a b : V3) :
    dot (cross a b) (cross a b) = dot a a * dot b b - dot a b ^ 2 := by
  simp only [dot, cross]; ring

theorem dot_cross_left (a b : V3) : dot a (cross a b) = 0 := by simp only [dot, cross]; ring
theorem dot_cross_right (a b : V3) : dot b (cross a b) = 0 := by simp only [dot, cross]; ring

/-- Cauchy–Schwarz. -/
theorem abs_dot_le (a b : V3) : |dot a b| ≤ norm a * norm b := by
  have h := dot_self_nonneg (cross a b)
  rw [dot_cross_self] at h
  have h2 : dot a b ^ 2 ≤ (norm a * norm b) ^ 2 := by
    rw [mul_pow, norm_sq, norm_sq]; linarith
  exact abs_le_of_sq_le_sq h2 (mul_nonneg (norm_nonneg a) (norm_nonneg b))

theorem norm_smul (c : ℝ) (a : V3) : norm (c • a) = |c| * norm a := by
  apply norm_eq_of_sq (mul_nonneg (abs_nonneg c) (norm_nonneg a))
  rw [mul_pow, sq_abs, norm_sq]; simp only [dot, smul_x, smul_y, smul_z]; ring

theorem norm_eq_zero {a : V3} : norm a = 0 ↔ a = 0 := by
  constructor
  · intro h
    have h2 := norm_sq a
    rw [h] at h2
    simp only [dot] at h2
    have hx : a.x = 0 := by nlinarith [sq_nonneg a.x, sq_nonneg a.y, sq_nonneg a.z]
    have hy : a.y = 0 := by nlinarith [sq_nonneg a.x, sq_nonneg a.y, sq_nonneg a.z]
    have hz : a.z = 0 := by nlinarith [sq_nonneg a.x, sq_nonneg a.y, sq_nonneg a.z]
    exact V3.ext hx hy hz
  · rintro rfl; simp [norm, dot]

end V3

end AMAT
