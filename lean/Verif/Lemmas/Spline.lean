import Verif.Model.Cubic
import Mathlib.LinearAlgebra.FiniteDimensional.Lemmas
import Mathlib.LinearAlgebra.Dimension.Constructions
import Mathlib.Tactic.Linarith
import Mathlib.Tactic.Ring
import Mathlib.Tactic.FieldSimp
import Mathlib.Tactic.Positivity
import Mathlib.Data.Finset.Max

/-
Existence, uniqueness and a-posteriori error bounds for not-a-knot cubic splines.
-/

noncomputable section

open Classical

namespace AMAT.Spline

variable {n : ℕ} {x y : ℕ → ℝ}

/-- Width of the interval `i`. -/
def width (x : ℕ → ℝ) (i : ℕ) : ℝ := x (i + 1) - x i

/-- Left-hand side of the continuity condition of the slope at node `i + 1`, for curvatures `M`. -/
def row (x M : ℕ → ℝ) (i : ℕ) : ℝ :=
  width x i * M i + 2 * (width x i + width x (i + 1)) * M (i + 1) + width x (i + 1) * M (i + 2)

/-- Left-hand side of the end condition involving the nodes `i, i+1, i+2`. -/
def endRow (x M : ℕ → ℝ) (i : ℕ) : ℝ :=
  width x (i + 1) * M i - (width x i + width x (i + 1)) * M (i + 1) + width x i * M (i + 2)

/-- Right-hand side of the slope condition. -/
def rhs (x y : ℕ → ℝ) (i : ℕ) : ℝ :=
  6 * ((y (i + 2) - y (i + 1)) / width x (i + 1) - (y (i + 1) - y i) / width x i)

/-- Curvatures of the pieces at the nodes. -/
def nodeCurv (n : ℕ) (x : ℕ → ℝ) (p : ℕ → Cubic) (i : ℕ) : ℝ :=
  if i < n then (p i).curvature 0 else (p (n - 1)).curvature (x n - x (n - 1))

/-- The piece with given curvatures at its ends. -/
def pieceOf (x y M : ℕ → ℝ) (i : ℕ) : Cubic :=
  ⟨y i, (y (i + 1) - y i) / width x i - width x i * (2 * M i + M (i + 1)) / 6, M i / 2,
    (M (i + 1) - M i) / (6 * width x i)⟩

theorem piece_eq (hx : ∀ i < n, x i < x (i + 1)) {p : ℕ → Cubic} (hp : IsNotAKnot n x y p) :
    ∀ i < n, p i = pieceOf x y (nodeCurv n x p) i := by
  intro i hi
  have hw : width x i ≠ 0 := by unfold width; linarith [hx i hi]
  have hl := hp.left i hi
  have hr := hp.right i hi
  have hM : nodeCurv n x p i = 2 * (p i).c := by simp [nodeCurv, hi, Cubic.curvature]
  have hM1 : nodeCurv n x p (i + 1) = 2 * (p i).c + 6 * (p i).d * width x i := by
    unfold nodeCurv
    split_ifs with h
    · rw [← hp.curvature i h]; simp [Cubic.curvature, width]
    · have : n = i + 1 := by omega
      subst this
      simp [Cubic.curvature, width]
  simp only [Cubic.eval] at hl hr
  change (p i).a + (p i).b * width x i + (p i).c * width x i ^ 2 + (p i).d * width x i ^ 3 = _ at hr
  have ha : (p i).a = y i := by simpa using hl
  rw [ha] at hr
  have hext : ∀ q r : Cubic, q.a = r.a → q.b = r.b → q.c = r.c → q.d = r.d → q = r := by
    rintro ⟨a, b, c, d⟩ ⟨a', b', c', d'⟩ h1 h2 h3 h4
    simp only at h1 h2 h3 h4
    rw [h1, h2, h3, h4]
  refine hext _ _ ha ?_ ?_ ?_
  all_goals simp only [pieceOf, hM, hM1]
  · rw [← hr]; field_simp; ring
  · ring
  · field_simp; ring

theorem row_eq (hx : ∀ i < n, x i < x (i + 1)) {p : ℕ → Cubic} (hp : IsNotAKnot n x y p) :
    ∀ i, i + 1 < n → row x (nodeCurv n x p) i = rhs x y i := by
  intro i hi
  have hw0 : width x i ≠ 0 := by unfold width; linarith [hx i (by omega)]
  have hw1 : width x (i + 1) ≠ 0 := by unfold width; linarith [hx (i + 1) hi]
  have hs := hp.slope i hi
  rw [piece_eq hx hp i (by omega), piece_eq hx hp (i + 1) hi] at hs
  change (pieceOf x y (nodeCurv n x p) i).slope (width x i) = _ at hs
  simp only [Cubic.slope, pieceOf] at hs
  simp only [row, rhs]
  field_simp at hs ⊢
  linarith

theorem endRow_start (hn : 3 ≤ n) (hx : ∀ i < n, x i < x (i + 1)) {p : ℕ → Cubic}
    (hp : IsNotAKnot n x y p) : endRow x (nodeCurv n x p) 0 = 0 := by
  have hw0 : width x 0 ≠ 0 := by unfold width; linarith [hx 0 (by omega)]
  have hw1 : width x 1 ≠ 0 := by unfold width; linarith [hx 1 (by omega)]
  have hs := hp.start
  rw [piece_eq hx hp 0 (by omega), piece_eq hx hp 1 (by omega)] at hs
  simp only [pieceOf] at hs
  simp only [endRow]
  field_simp at hs
  norm_num at hs ⊢
  linarith

theorem endRow_stop (hn : 3 ≤ n) (hx : ∀ i < n, x i < x (i + 1)) {p : ℕ → Cubic}
    (hp : IsNotAKnot n x y p) : endRow x (nodeCurv n x p) (n - 2) = 0 := by
  have hw0 : width x (n - 2) ≠ 0 := by unfold width; linarith [hx (n - 2) (by omega)]
  have e1 : n - 2 + 1 = n - 1 := by omega
  have e2 : n - 2 + 2 = n - 1 + 1 := by omega
  have hw1 : width x (n - 1) ≠ 0 := by unfold width; linarith [hx (n - 1) (by omega)]
  have hs := hp.stop
  rw [piece_eq hx hp (n - 2) (by omega), piece_eq hx hp (n - 1) (by omega)] at hs
  simp only [pieceOf] at hs
  simp only [endRow, e1, e2] at hs ⊢
  field_simp at hs
  linarith

/-- Conversely curvatures that satisfy the linear system give the spline. -/
theorem notAKnot_of_curv (hn : 3 ≤ n) (hx : ∀ i < n, x i < x (i + 1)) {M : ℕ → ℝ}
    (hrow : ∀ i, i + 1 < n → row x M i = rhs x y i) (h0 : endRow x M 0 = 0)
    (h1 : endRow x M (n - 2) = 0) : IsNotAKnot n x y (pieceOf x y M) := by
  have hw : ∀ i < n, width x i ≠ 0 := by intro i hi; unfold width; linarith [hx i hi]
  constructor
  · intro i _; simp [Cubic.eval, pieceOf]
  · intro i hi
    change (pieceOf x y M i).eval (width x i) = _
    have := hw i hi
    simp only [Cubic.eval, pieceOf]
    field_simp
    ring
  · intro i hi
    change (pieceOf x y M i).slope (width x i) = _
    have a := hw i (by omega)
    have b := hw (i + 1) hi
    have := hrow i hi
    simp only [Cubic.slope, pieceOf]
    simp only [row, rhs] at this
    field_simp at this ⊢
    linarith
  · intro i hi
    change (pieceOf x y M i).curvature (width x i) = _
    have a := hw i (by omega)
    simp only [Cubic.curvature, pieceOf]
    field_simp
    ring
  · have a := hw 0 (by omega)
    have b := hw 1 (by omega)
    simp only [pieceOf]
    simp only [endRow] at h0
    norm_num at h0
    field_simp
    linarith
  · have a := hw (n - 2) (by omega)
    have b := hw (n - 1) (by omega)
    have e1 : n - 2 + 1 = n - 1 := by omega
    have e2 : n - 2 + 2 = n - 1 + 1 := by omega
    simp only [pieceOf]
    simp only [endRow, e1, e2] at h1 ⊢
    field_simp
    linarith

/-- A-posteriori bound: the diagonally dominant system transports a bound on the residuals to a
bound on the solution (interior nodes). -/
theorem bound_interior (hn : 3 ≤ n) (hx : ∀ i < n, x i < x (i + 1)) {e : ℕ → ℝ} {ε : ℝ} (hε : 0 ≤ ε)
    (hrow : ∀ i, i + 1 < n → |row x e i| ≤ ε * (width x i + width x (i + 1)))
    (h0 : |endRow x e 0| ≤ ε * width x 1)
    (h1 : |endRow x e (n - 2)| ≤ ε * width x (n - 2)) :
    ∀ i, 1 ≤ i → i < n → |e i| ≤ 2 * ε := by
  have hw : ∀ i < n, 0 < width x i := by intro i hi; unfold width; linarith [hx i hi]
  obtain ⟨k, hk, hmax⟩ := Finset.exists_max_image (Finset.Ico 1 n) (fun i => |e i|)
    ⟨1, by simp; omega⟩
  rw [Finset.mem_Ico] at hk
  have hM : ∀ i, 1 ≤ i → i < n → |e i| ≤ |e k| := fun i a b => hmax i (by simp [a, b])
  suffices h : |e k| ≤ 2 * ε by
    intro i a b; exact (hM i a b).trans h
  -- general estimate: `A e_k = r - B u - C v` with `|u|, |v| ≤ |e_k|`
  have est : ∀ (A B C r u v : ℝ), A * e k + B * u + C * v = r → |u| ≤ |e k| → |v| ≤ |e k| → 0 ≤ A →
      (A - |B| - |C|) * |e k| ≤ |r| := by
    intro A B C r u v h hu hv hA
    have h1 : A * |e k| = |r - B * u - C * v| := by
      rw [← h]; rw [show A * e k + B * u + C * v - B * u - C * v = A * e k by ring, abs_mul,
        abs_of_nonneg hA]
    have h2 : |r - B * u - C * v| ≤ |r| + |B| * |u| + |C| * |v| := by
      calc |r - B * u - C * v| ≤ |r - B * u| + |C * v| := abs_sub _ _
        _ ≤ |r| + |B * u| + |C * v| := by linarith [abs_sub r (B * u)]
        _ = _ := by rw [abs_mul, abs_mul]
    nlinarith [mul_le_mul_of_nonneg_left hu (abs_nonneg B),
      mul_le_mul_of_nonneg_left hv (abs_nonneg C)]
  by_cases hk1 : k = 1
  · subst hk1
    have w0 := hw 0 (by omega)
    have w1 := hw 1 (by omega)
    have r := hrow 0 (by omega)
    set r0 := row x e 0 with hr0
    set q0 := endRow x e 0 with hq0
    have hcomb : (width x 0 + width x 1) * (width x 0 + 2 * width x 1) * e 1
        + ((width x 1) ^ 2 - (width x 0) ^ 2) * e 2 + 0 * e 1 = width x 1 * r0 - width x 0 * q0 := by
      simp only [hr0, hq0, row, endRow]; ring
    have h2 : |e 2| ≤ |e 1| := hM 2 (by omega) (by omega)
    have := est _ _ _ _ _ _ hcomb h2 (le_refl _) (by positivity)
    have hab : |(width x 1) ^ 2 - (width x 0) ^ 2| ≤
        (width x 0 + width x 1) * (width x 0 + width x 1) := by
      rw [abs_le]; constructor <;> nlinarith
    have hr : |width x 1 * r0 - width x 0 * q0| ≤
        ε * width x 1 * (2 * width x 0 + width x 1) := by
      calc _ ≤ |width x 1 * r0| + |width x 0 * q0| := abs_sub _ _
        _ = width x 1 * |r0| + width x 0 * |q0| := by
            rw [abs_mul, abs_mul, abs_of_pos w0, abs_of_pos w1]
        _ ≤ width x 1 * (ε * (width x 0 + width x 1)) + width x 0 * (ε * width x 1) :=
            add_le_add (mul_le_mul_of_nonneg_left r w1.le) (mul_le_mul_of_nonneg_left h0 w0.le)
        _ = _ := by ring
    rw [abs_zero, sub_zero] at this
    have h3 : (width x 0 + width x 1) * width x 1 * |e 1| ≤ ε * width x 1 * (2 * width x 0 + width x 1) := by
      refine le_trans ?_ (this.trans hr)
      refine mul_le_mul_of_nonneg_right ?_ (abs_nonneg _)
      nlinarith
    have h4 : (width x 0 + width x 1) * width x 1 * |e 1| ≤
        (width x 0 + width x 1) * width x 1 * (2 * ε) := by
      refine h3.trans ?_
      nlinarith [mul_nonneg (mul_nonneg hε w1.le) w1.le]
    exact le_of_mul_le_mul_left h4 (by positivity)
  by_cases hkn : k = n - 1
  · have w0 := hw (n - 2) (by omega)
    have w1 := hw (n - 1) (by omega)
    have e1 : n - 2 + 1 = n - 1 := by omega
    have e2 : n - 2 + 2 = n := by omega
    have r := hrow (n - 2) (by omega)
    set r0 := row x e (n - 2) with hr0
    set q0 := endRow x e (n - 2) with hq0
    rw [e1] at r
    have hcomb : (width x (n - 2) + width x (n - 1)) * (width x (n - 1) + 2 * width x (n - 2)) * e k
        + ((width x (n - 2)) ^ 2 - (width x (n - 1)) ^ 2) * e (n - 2) + 0 * e k
        = width x (n - 2) * r0 - width x (n - 1) * q0 := by
      simp only [hr0, hq0, row, endRow, e1, e2, hkn]; ring
    have h2 : |e (n - 2)| ≤ |e k| := hM (n - 2) (by omega) (by omega)
    have := est _ _ _ _ _ _ hcomb h2 (le_refl _) (by positivity)
    have hab : |(width x (n - 2)) ^ 2 - (width x (n - 1)) ^ 2| ≤
        (width x (n - 2) + width x (n - 1)) * (width x (n - 2) + width x (n - 1)) := by
      rw [abs_le]; constructor <;> nlinarith
    have hr : |width x (n - 2) * r0 - width x (n - 1) * q0| ≤
        ε * width x (n - 2) * (width x (n - 2) + 2 * width x (n - 1)) := by
      calc _ ≤ |width x (n - 2) * r0| + |width x (n - 1) * q0| := abs_sub _ _
        _ = width x (n - 2) * |r0| + width x (n - 1) * |q0| := by
            rw [abs_mul, abs_mul, abs_of_pos w0, abs_of_pos w1]
        _ ≤ width x (n - 2) * (ε * (width x (n - 2) + width x (n - 1)))
            + width x (n - 1) * (ε * width x (n - 2)) :=
            add_le_add (mul_le_mul_of_nonneg_left r w0.le) (mul_le_mul_of_nonneg_left h1 w1.le)
        _ = _ := by ring
    rw [abs_zero, sub_zero] at this
    have h3 : (width x (n - 2) + width x (n - 1)) * width x (n - 2) * |e k| ≤
        ε * width x (n - 2) * (width x (n - 2) + 2 * width x (n - 1)) := by
      refine le_trans ?_ (this.trans hr)
      refine mul_le_mul_of_nonneg_right ?_ (abs_nonneg _)
      nlinarith
    have h4 : (width x (n - 2) + width x (n - 1)) * width x (n - 2) * |e k| ≤
        (width x (n - 2) + width x (n - 1)) * width x (n - 2) * (2 * ε) := by
      refine h3.trans ?_
      nlinarith [mul_nonneg (mul_nonneg hε w0.le) w0.le]
    exact le_of_mul_le_mul_left h4 (by positivity)
  · obtain ⟨j, rfl⟩ : ∃ j, k = j + 1 := ⟨k - 1, by omega⟩
    have w0 := hw j (by omega)
    have w1 := hw (j + 1) (by omega)
    have r := hrow j (by omega)
    have hcomb : 2 * (width x j + width x (j + 1)) * e (j + 1) + width x j * e j
        + width x (j + 1) * e (j + 2) = row x e j := by simp only [row]; ring
    have := est _ _ _ _ _ _ hcomb (hM j (by omega) (by omega)) (hM (j + 2) (by omega) (by omega))
      (by positivity)
    rw [abs_of_pos w0, abs_of_pos w1] at this
    have h4 : (width x j + width x (j + 1)) * |e (j + 1)| ≤ (width x j + width x (j + 1)) * ε := by
      calc _ = (2 * (width x j + width x (j + 1)) - width x j - width x (j + 1)) * |e (j + 1)| := by
            ring
        _ ≤ _ := this.trans r
        _ = _ := by ring
    have := le_of_mul_le_mul_left h4 (by positivity)
    linarith

/-- Bound at the two end nodes. -/
theorem bound_all (hn : 3 ≤ n) (hx : ∀ i < n, x i < x (i + 1)) {e : ℕ → ℝ} {ε D : ℝ} (hε : 0 ≤ ε)
    (hrow : ∀ i, i + 1 < n → |row x e i| ≤ ε * (width x i + width x (i + 1)))
    (h0 : |endRow x e 0| ≤ ε * width x 1)
    (h1 : |endRow x e (n - 2)| ≤ ε * width x (n - 2)) (hD : 2 ≤ D)
    (hD0 : 3 * width x 1 + 4 * width x 0 ≤ D * width x 1)
    (hD1 : 3 * width x (n - 2) + 4 * width x (n - 1) ≤ D * width x (n - 2)) :
    ∀ i ≤ n, |e i| ≤ D * ε := by
  have hw : ∀ i < n, 0 < width x i := by intro i hi; unfold width; linarith [hx i hi]
  have hb := bound_interior hn hx hε hrow h0 h1
  intro i hi
  rcases Nat.eq_zero_or_pos i with rfl | hi0
  · have w0 := hw 0 (by omega)
    have w1 := hw 1 (by omega)
    have b1 := hb 1 (by omega) (by omega)
    have b2 := hb 2 (by omega) (by omega)
    have he : width x 1 * e 0 = endRow x e 0 + (width x 0 + width x 1) * e 1 - width x 0 * e 2 := by
      simp only [endRow]; ring
    have : width x 1 * |e 0| ≤ width x 1 * (D * ε) := by
      calc width x 1 * |e 0| = |endRow x e 0 + (width x 0 + width x 1) * e 1 - width x 0 * e 2| := by
            rw [← he, abs_mul, abs_of_pos w1]
        _ ≤ |endRow x e 0| + |(width x 0 + width x 1) * e 1| + |width x 0 * e 2| := by
            refine (abs_sub _ _).trans ?_
            linarith [abs_add_le (endRow x e 0) ((width x 0 + width x 1) * e 1)]
        _ = |endRow x e 0| + (width x 0 + width x 1) * |e 1| + width x 0 * |e 2| := by
            rw [abs_mul, abs_mul, abs_of_pos w0, abs_of_pos (by positivity : 0 < width x 0 + width x 1)]
        _ ≤ ε * width x 1 + (width x 0 + width x 1) * (2 * ε) + width x 0 * (2 * ε) := by
            gcongr
        _ = ε * (3 * width x 1 + 4 * width x 0) := by ring
        _ ≤ ε * (D * width x 1) := mul_le_mul_of_nonneg_left hD0 hε
        _ = _ := by ring
    exact le_of_mul_le_mul_left this w1
  · rcases Nat.lt_or_ge i n with h | h
    · exact (hb i hi0 h).trans (mul_le_mul_of_nonneg_right hD hε)
    · have : i = n := by omega
      subst this
      have w0 := hw (i - 2) (by omega)
      have w1 := hw (i - 1) (by omega)
      have e1 : i - 2 + 1 = i - 1 := by omega
      have e2 : i - 2 + 2 = i := by omega
      have b1 := hb (i - 1) (by omega) (by omega)
      have b2 := hb (i - 2) (by omega) (by omega)
      have he : width x (i - 2) * e i = endRow x e (i - 2)
          + (width x (i - 2) + width x (i - 1)) * e (i - 1) - width x (i - 1) * e (i - 2) := by
        simp only [endRow, e1, e2]; ring
      have : width x (i - 2) * |e i| ≤ width x (i - 2) * (D * ε) := by
        calc width x (i - 2) * |e i| = |endRow x e (i - 2)
            + (width x (i - 2) + width x (i - 1)) * e (i - 1) - width x (i - 1) * e (i - 2)| := by
              rw [← he, abs_mul, abs_of_pos w0]
          _ ≤ |endRow x e (i - 2)| + |(width x (i - 2) + width x (i - 1)) * e (i - 1)|
              + |width x (i - 1) * e (i - 2)| := by
              refine (abs_sub _ _).trans ?_
              linarith [abs_add_le (endRow x e (i - 2)) ((width x (i - 2) + width x (i - 1)) * e (i - 1))]
          _ = |endRow x e (i - 2)| + (width x (i - 2) + width x (i - 1)) * |e (i - 1)|
              + width x (i - 1) * |e (i - 2)| := by
              rw [abs_mul, abs_mul, abs_of_pos w1,
                abs_of_pos (by positivity : 0 < width x (i - 2) + width x (i - 1))]
          _ ≤ ε * width x (i - 2) + (width x (i - 2) + width x (i - 1)) * (2 * ε)
              + width x (i - 1) * (2 * ε) := by
              gcongr
          _ = ε * (3 * width x (i - 2) + 4 * width x (i - 1)) := by ring
          _ ≤ ε * (D * width x (i - 2)) := mul_le_mul_of_nonneg_left hD1 hε
          _ = _ := by ring
      exact le_of_mul_le_mul_left this w0

/-- The linear system is injective. -/
theorem system_injective (hn : 3 ≤ n) (hx : ∀ i < n, x i < x (i + 1)) {e : ℕ → ℝ}
    (hrow : ∀ i, i + 1 < n → row x e i = 0) (h0 : endRow x e 0 = 0) (h1 : endRow x e (n - 2) = 0) :
    ∀ i ≤ n, e i = 0 := by
  have hw : ∀ i < n, 0 < width x i := by intro i hi; unfold width; linarith [hx i hi]
  have w0 := hw 0 (by omega)
  have w1 := hw 1 (by omega)
  have w2 := hw (n - 2) (by omega)
  have w3 := hw (n - 1) (by omega)
  set D := 2 + (3 * width x 1 + 4 * width x 0) / width x 1
    + (3 * width x (n - 2) + 4 * width x (n - 1)) / width x (n - 2) with hD
  have p1 : 0 < (3 * width x 1 + 4 * width x 0) / width x 1 := by positivity
  have p2 : 0 < (3 * width x (n - 2) + 4 * width x (n - 1)) / width x (n - 2) := by positivity
  have := bound_all (D := D) (ε := 0) hn hx le_rfl (e := e)
    (fun i hi => by rw [hrow i hi]; simp) (by rw [h0]; simp) (by rw [h1]; simp) (by linarith)
    (by
      rw [hD, add_mul, add_mul, div_mul_cancel₀ _ w1.ne']
      nlinarith)
    (by
      rw [hD, add_mul, add_mul, div_mul_cancel₀ _ w2.ne']
      nlinarith)
  intro i hi
  have := this i hi
  simpa using this

/-- Extension of a finite family by zero. -/
def ext (n : ℕ) (v : Fin (n + 1) → ℝ) (i : ℕ) : ℝ := if h : i < n + 1 then v ⟨i, h⟩ else 0

/-- The linear system as a linear map. -/
def system (n : ℕ) (x : ℕ → ℝ) : (Fin (n + 1) → ℝ) →ₗ[ℝ] (Fin (n + 1) → ℝ) where
  toFun v := fun j => if j.1 = 0 then endRow x (ext n v) 0
    else if j.1 = n then endRow x (ext n v) (n - 2) else row x (ext n v) (j.1 - 1)
  map_add' u v := by
    have : ∀ i, ext n (u + v) i = ext n u i + ext n v i := by
      intro i; unfold ext; split_ifs <;> simp
    funext j
    simp only [endRow, row, this, Pi.add_apply]
    split_ifs <;> ring
  map_smul' a v := by
    have : ∀ i, ext n (a • v) i = a * ext n v i := by
      intro i; unfold ext; split_ifs <;> simp
    funext j
    simp only [endRow, row, this, Pi.smul_apply, smul_eq_mul, RingHom.id_apply]
    split_ifs <;> ring

/-- Every table with at least four rows and increasing abscissae has a not-a-knot spline. -/
theorem exists_spline (hn : 3 ≤ n) (hx : ∀ i < n, x i < x (i + 1)) :
    ∃ p, IsNotAKnot n x y p := by
  have hinj : Function.Injective (system n x) := by
    rw [injective_iff_map_eq_zero]
    intro v hv
    have hj : ∀ j : Fin (n + 1), system n x v j = 0 := fun j => by rw [hv]; rfl
    have hz := system_injective (e := ext n v) hn hx
      (fun i hi => by
        have := hj ⟨i + 1, by omega⟩
        simpa [system, show i + 1 ≠ n by omega] using this)
      (by have := hj ⟨0, by omega⟩; simpa [system] using this)
      (by
        have := hj ⟨n, by omega⟩
        simpa [system, show n ≠ 0 by omega] using this)
    funext j
    have := hz j.1 (by omega)
    simpa [ext, Nat.lt_succ_iff, Nat.le_of_lt_succ j.2] using this
  have hsurj := LinearMap.injective_iff_surjective.mp hinj
  obtain ⟨v, hv⟩ := hsurj (fun j => if j.1 = 0 then 0 else if j.1 = n then 0 else rhs x y (j.1 - 1))
  have hj : ∀ j : Fin (n + 1), system n x v j
      = if j.1 = 0 then 0 else if j.1 = n then 0 else rhs x y (j.1 - 1) := fun j => by rw [hv]
  refine ⟨_, notAKnot_of_curv (M := ext n v) hn hx ?_ ?_ ?_⟩
  · intro i hi
    have := hj ⟨i + 1, by omega⟩
    simpa [system, show i + 1 ≠ n by omega] using this
  · have := hj ⟨0, by omega⟩; simpa [system] using this
  · have := hj ⟨n, by omega⟩
    simpa [system, show n ≠ 0 by omega] using this

/-- … and only one. -/
theorem unique_spline (hn : 3 ≤ n) (hx : ∀ i < n, x i < x (i + 1)) {p q : ℕ → Cubic}
    (hp : IsNotAKnot n x y p) (hq : IsNotAKnot n x y q) : ∀ i < n, p i = q i := by
  have hz := system_injective (e := fun i => nodeCurv n x p i - nodeCurv n x q i) hn hx
    (fun i hi => by
      have a := row_eq hx hp i hi
      have b := row_eq hx hq i hi
      simp only [row] at a b ⊢; linarith)
    (by
      have a := endRow_start hn hx hp
      have b := endRow_start hn hx hq
      simp only [endRow] at a b ⊢; linarith)
    (by
      have a := endRow_stop hn hx hp
      have b := endRow_stop hn hx hq
      simp only [endRow] at a b ⊢; linarith)
  intro i hi
  rw [piece_eq hx hp i hi, piece_eq hx hq i hi]
  have a := hz i (by omega)
  have b := hz (i + 1) (by omega)
  have a' : nodeCurv n x p i = nodeCurv n x q i := by linarith
  have b' : nodeCurv n x p (i + 1) = nodeCurv n x q (i + 1) := by linarith
  simp only [pieceOf, a', b']

end AMAT.Spline
