import Verif.Model.Quadratic
import Mathlib.LinearAlgebra.FiniteDimensional.Lemmas
import Mathlib.LinearAlgebra.Dimension.Constructions
import Mathlib.Tactic.Linarith
import Mathlib.Tactic.Ring
import Mathlib.Tactic.FieldSimp
import Mathlib.Tactic.Positivity
import Mathlib.Data.Finset.Max

/-
Existence and uniqueness of quadratic splines whose pieces meet halfway between the abscissae.
-/

noncomputable section

open Classical

namespace AMAT.QuadSpline

variable {n : ℕ} {x y : ℕ → ℝ}

theorem knot_zero : quadKnot n x 0 = x 0 := by simp [quadKnot]

theorem knot_last (hn : 2 ≤ n) : quadKnot n x (n - 1) = x n := by
  simp [quadKnot, show n - 1 ≠ 0 by omega]

theorem knot_mid {j : ℕ} (h0 : j ≠ 0) (h1 : j ≠ n - 1) : quadKnot n x j = (x j + x (j + 1)) / 2 := by
  simp [quadKnot, h0, h1]

/-- Each end lies in the interval of the same number … -/
theorem knot_mem (hn : 2 ≤ n) (hx : ∀ i < n, x i < x (i + 1)) {j : ℕ} (hj : j < n) :
    x j ≤ quadKnot n x j ∧ quadKnot n x j ≤ x (j + 1) := by
  have := hx j hj
  by_cases h0 : j = 0
  · subst h0; rw [knot_zero]; exact ⟨le_refl _, this.le⟩
  by_cases h1 : j = n - 1
  · rw [h1, knot_last hn, show n - 1 + 1 = n by omega]
    rw [h1, show n - 1 + 1 = n by omega] at this
    exact ⟨this.le, le_refl _⟩
  · rw [knot_mid h0 h1]; constructor <;> linarith

/-- … and strictly on either side of the abscissae in between. -/
theorem knot_lt (hn : 2 ≤ n) (hx : ∀ i < n, x i < x (i + 1)) {j : ℕ} (hj : j + 1 < n) :
    quadKnot n x j < x (j + 1) ∧ x (j + 1) < quadKnot n x (j + 1) := by
  have a := hx j (by omega)
  have b := hx (j + 1) hj
  constructor
  · by_cases h0 : j = 0
    · subst h0; rw [knot_zero]; exact a
    · rw [knot_mid h0 (by omega)]; linarith
  · by_cases h1 : j + 1 = n - 1
    · rw [h1, knot_last hn]
      rw [show j + 1 + 1 = n by omega, h1] at b
      exact b
    · rw [knot_mid (by omega) h1]; linarith

theorem knot_step (hn : 2 ≤ n) (hx : ∀ i < n, x i < x (i + 1)) {j : ℕ} (hj : j + 1 < n) :
    0 < quadKnot n x (j + 1) - quadKnot n x j := by
  have := knot_lt hn hx hj; linarith

/-- Weight of the slope at the previous end in the increment over the interval `i`. -/
def lo (n : ℕ) (x : ℕ → ℝ) (i : ℕ) : ℝ :=
  if i = 0 then 0 else (quadKnot n x i - x i) ^ 2 / (2 * (quadKnot n x i - quadKnot n x (i - 1)))

/-- Weight of the slope at the next end. -/
def hi (n : ℕ) (x : ℕ → ℝ) (i : ℕ) : ℝ :=
  if i + 1 < n then (x (i + 1) - quadKnot n x i) ^ 2 / (2 * (quadKnot n x (i + 1) - quadKnot n x i)) else 0

/-- Increment over the interval `i` for slopes `d` at the ends of the pieces. -/
def row (n : ℕ) (x d : ℕ → ℝ) (i : ℕ) : ℝ :=
  lo n x i * d (i - 1) + (x (i + 1) - x i - lo n x i - hi n x i) * d i + hi n x i * d (i + 1)

theorem lo_hi (hn : 2 ≤ n) (hx : ∀ i < n, x i < x (i + 1)) {i : ℕ} (hi' : i < n) :
    0 ≤ lo n x i ∧ 0 ≤ hi n x i ∧ 2 * lo n x i + 2 * hi n x i < x (i + 1) - x i := by
  have hm := knot_mem hn hx hi'
  have hl : 0 ≤ lo n x i ∧ 2 * lo n x i ≤ quadKnot n x i - x i ∧
      (0 < quadKnot n x i - x i → 2 * lo n x i < quadKnot n x i - x i) := by
    unfold lo
    split_ifs with h
    · subst h
      rw [knot_zero]
      refine ⟨le_refl _, by linarith, fun h => by linarith⟩
    · obtain ⟨j, rfl⟩ : ∃ j, i = j + 1 := ⟨i - 1, by omega⟩
      rw [show j + 1 - 1 = j by omega]
      have hs := knot_step hn hx hi'
      have hlt := knot_lt hn hx hi'
      set L := quadKnot n x (j + 1) - quadKnot n x j with hL
      set l := quadKnot n x (j + 1) - x (j + 1) with hl
      have hlL : l < L := by rw [hL, hl]; linarith [hlt.1]
      have hl0 : 0 ≤ l := by rw [hl]; linarith [hm.1]
      have e : 2 * (l ^ 2 / (2 * L)) = l * (l / L) := by field_simp
      have q : l / L < 1 := (div_lt_one hs).mpr hlL
      refine ⟨by positivity, ?_, fun hp => ?_⟩
      · rw [e]; nlinarith [mul_nonneg hl0 (sub_nonneg.mpr q.le)]
      · rw [e]; nlinarith [mul_pos hp (sub_pos.mpr q)]
  have hr : 0 ≤ hi n x i ∧ 2 * hi n x i ≤ x (i + 1) - quadKnot n x i ∧
      (0 < x (i + 1) - quadKnot n x i → 2 * hi n x i < x (i + 1) - quadKnot n x i) := by
    unfold hi
    split_ifs with h
    · have hs := knot_step hn hx h
      have hlt := knot_lt hn hx h
      set L := quadKnot n x (i + 1) - quadKnot n x i with hL
      set l := x (i + 1) - quadKnot n x i with hl
      have hlL : l < L := by rw [hL, hl]; linarith [hlt.2]
      have hl0 : 0 ≤ l := by rw [hl]; linarith [hm.2]
      have e : 2 * (l ^ 2 / (2 * L)) = l * (l / L) := by field_simp
      have q : l / L < 1 := (div_lt_one hs).mpr hlL
      refine ⟨by positivity, ?_, fun hp => ?_⟩
      · rw [e]; nlinarith [mul_nonneg hl0 (sub_nonneg.mpr q.le)]
      · rw [e]; nlinarith [mul_pos hp (sub_pos.mpr q)]
    · refine ⟨le_refl _, by linarith [hm.2], fun h => by linarith⟩
  refine ⟨hl.1, hr.1, ?_⟩
  have hpos := hx i hi'
  rcases hm.1.lt_or_eq with h | h
  · have := hl.2.2 (by linarith); linarith [hr.2.1]
  · have := hr.2.2 (by linarith); linarith [hl.2.1]

/-- The linear system is injective. -/
theorem system_injective (hn : 2 ≤ n) (hx : ∀ i < n, x i < x (i + 1)) {d : ℕ → ℝ} (hrow : ∀ i < n, row n x d i = 0) :
    ∀ i < n, d i = 0 := by
  obtain ⟨k, hk, hmax⟩ := Finset.exists_max_image (Finset.range n) (fun i => |d i|) ⟨0, by simp; omega⟩
  rw [Finset.mem_range] at hk
  have hM : ∀ i < n, |d i| ≤ |d k| := fun i a => hmax i (by simp [a])
  suffices h : |d k| ≤ 0 by
    intro i a
    exact abs_nonpos_iff.mp ((hM i a).trans h)
  obtain ⟨a1, a2, a3⟩ := lo_hi hn hx hk
  have hr := hrow k hk
  unfold row at hr
  have b1 : |d (k - 1)| ≤ |d k| := hM _ (by omega)
  have b2 : |hi n x k * d (k + 1)| ≤ hi n x k * |d k| := by
    by_cases h : k + 1 < n
    · rw [abs_mul, abs_of_nonneg a2]
      exact mul_le_mul_of_nonneg_left (hM _ h) a2
    · simp [hi, h]
  have b3 : |lo n x k * d (k - 1)| ≤ lo n x k * |d k| := by
    rw [abs_mul, abs_of_nonneg a1]
    exact mul_le_mul_of_nonneg_left b1 a1
  have b4 : |(x (k + 1) - x k - lo n x k - hi n x k) * d k| = (x (k + 1) - x k - lo n x k - hi n x k) * |d k| := by
    rw [abs_mul, abs_of_nonneg (by linarith)]
  have b5 : (x (k + 1) - x k - lo n x k - hi n x k) * d k = -(lo n x k * d (k - 1)) - hi n x k * d (k + 1) := by linarith
  have b6 : |-(lo n x k * d (k - 1)) - hi n x k * d (k + 1)| ≤ lo n x k * |d k| + hi n x k * |d k| := by
    refine (abs_sub _ _).trans ?_
    rw [abs_neg]
    linarith
  rw [b5] at b4
  rw [b4] at b6
  by_contra hc
  nlinarith [mul_pos (sub_pos.mpr a3) (not_le.mp hc)]

/-- Extension of a finite family by zero. -/
def ext (n : ℕ) (v : Fin n → ℝ) (i : ℕ) : ℝ := if h : i < n then v ⟨i, h⟩ else 0

/-- The linear system as a linear map. -/
def system (n : ℕ) (x : ℕ → ℝ) : (Fin n → ℝ) →ₗ[ℝ] (Fin n → ℝ) where
  toFun v := fun j => row n x (ext n v) j.1
  map_add' u v := by
    have : ∀ i, ext n (u + v) i = ext n u i + ext n v i := by
      intro i; unfold ext; split_ifs <;> simp
    funext j
    simp only [row, this, Pi.add_apply]
    ring
  map_smul' a v := by
    have : ∀ i, ext n (a • v) i = a * ext n v i := by
      intro i; unfold ext; split_ifs <;> simp
    funext j
    simp only [row, this, Pi.smul_apply, smul_eq_mul, RingHom.id_apply]
    ring

theorem exists_slopes (hn : 2 ≤ n) (hx : ∀ i < n, x i < x (i + 1)) :
    ∃ d : ℕ → ℝ, ∀ i < n, row n x d i = y (i + 1) - y i := by
  have hinj : Function.Injective (system n x) := by
    rw [injective_iff_map_eq_zero]
    intro v hv
    have hz := system_injective (d := ext n v) hn hx fun i hi => by
      have : system n x v ⟨i, hi⟩ = 0 := by rw [hv]; rfl
      exact this
    funext j
    have := hz j.1 j.2
    simpa [ext] using this
  obtain ⟨v, hv⟩ := LinearMap.injective_iff_surjective.mp hinj (fun j => y (j.1 + 1) - y j.1)
  exact ⟨ext n v, fun i hi => congrFun hv ⟨i, hi⟩⟩

/-- The piece with given slopes at its ends. -/
def pieceOf (n : ℕ) (x y d : ℕ → ℝ) (j : ℕ) : Quad :=
  let L := quadKnot n x (j + 1) - quadKnot n x j
  let r := x (j + 1) - quadKnot n x j
  ⟨y (j + 1) - d j * r - (d (j + 1) - d j) / (2 * L) * r ^ 2, d j, (d (j + 1) - d j) / (2 * L)⟩

/-- Slopes of the pieces at their ends. -/
def endSlope (n : ℕ) (x : ℕ → ℝ) (p : ℕ → Quad) (j : ℕ) : ℝ :=
  if j + 1 < n then (p j).slope 0 else (p (n - 2)).slope (x n - quadKnot n x (n - 2))

theorem piece_eq (hn : 2 ≤ n) (hx : ∀ i < n, x i < x (i + 1)) {p : ℕ → Quad} (hp : IsQuadSpline n x y p) :
    ∀ j, j + 1 < n → p j = pieceOf n x y (endSlope n x p) j := by
  intro j hj
  have hL := knot_step hn hx hj
  have h0 : endSlope n x p j = (p j).b := by simp [endSlope, hj, Quad.slope]
  have h1 : endSlope n x p (j + 1) = (p j).b + 2 * (p j).c * (quadKnot n x (j + 1) - quadKnot n x j) := by
    unfold endSlope
    split_ifs with h
    · rw [← hp.slope j h]; rfl
    · have e : n - 2 = j := by omega
      rw [e, show j + 1 = n - 1 by omega, knot_last hn]; rfl
  have hv := hp.node j hj
  simp only [Quad.eval] at hv
  have hc : (endSlope n x p (j + 1) - endSlope n x p j) / (2 * (quadKnot n x (j + 1) - quadKnot n x j)) = (p j).c := by
    rw [h0, h1]; field_simp; ring
  have hext : ∀ q r : Quad, q.a = r.a → q.b = r.b → q.c = r.c → q = r := by
    rintro ⟨a, b, c⟩ ⟨a', b', c'⟩ h1 h2 h3
    simp only at h1 h2 h3
    rw [h1, h2, h3]
  refine hext _ _ ?_ ?_ ?_
  · simp only [pieceOf, hc]
    rw [h0]; linarith
  · simp only [pieceOf]; rw [h0]
  · simp only [pieceOf, hc]

/-- Increment of a piece from its left end to the abscissa inside it, and from there to its right end. -/
theorem piece_right (d : ℕ → ℝ) {j : ℕ} (hL : 0 < quadKnot n x (j + 1) - quadKnot n x j) :
    (pieceOf n x y d j).eval (quadKnot n x (j + 1) - quadKnot n x j) =
      y (j + 1) + (quadKnot n x (j + 1) - x (j + 1) -
        (quadKnot n x (j + 1) - x (j + 1)) ^ 2 / (2 * (quadKnot n x (j + 1) - quadKnot n x j))) * d (j + 1)
      + (quadKnot n x (j + 1) - x (j + 1)) ^ 2 / (2 * (quadKnot n x (j + 1) - quadKnot n x j)) * d j := by
  simp only [pieceOf, Quad.eval]
  field_simp
  ring

theorem piece_left (d : ℕ → ℝ) {j : ℕ} (hL : 0 < quadKnot n x (j + 1) - quadKnot n x j) :
    (pieceOf n x y d j).eval 0 =
      y (j + 1) - (x (j + 1) - quadKnot n x j -
        (x (j + 1) - quadKnot n x j) ^ 2 / (2 * (quadKnot n x (j + 1) - quadKnot n x j))) * d j
      - (x (j + 1) - quadKnot n x j) ^ 2 / (2 * (quadKnot n x (j + 1) - quadKnot n x j)) * d (j + 1) := by
  simp only [pieceOf, Quad.eval]
  field_simp
  ring

/-- The conditions of the spline are the linear system for the slopes. -/
theorem conditions_iff (hn : 2 ≤ n) (hx : ∀ i < n, x i < x (i + 1)) (d : ℕ → ℝ) :
    (∀ i < n, row n x d i = y (i + 1) - y i) ↔
      (pieceOf n x y d 0).eval 0 = y 0 ∧ (pieceOf n x y d (n - 2)).eval (x n - quadKnot n x (n - 2)) = y n ∧
      ∀ j, j + 2 < n → (pieceOf n x y d j).eval (quadKnot n x (j + 1) - quadKnot n x j) = (pieceOf n x y d (j + 1)).eval 0 := by
  have e0 : row n x d 0 = y 1 - y 0 ↔ (pieceOf n x y d 0).eval 0 = y 0 := by
    rw [piece_left d (knot_step hn hx (by omega))]
    unfold row lo hi
    rw [if_pos rfl, if_pos (by omega : 0 + 1 < n)]
    rw [knot_zero]
    simp only [zero_add]
    constructor <;> intro h <;> linarith
  have e1 : row n x d (n - 1) = y n - y (n - 1) ↔
      (pieceOf n x y d (n - 2)).eval (x n - quadKnot n x (n - 2)) = y n := by
    have a := knot_step hn hx (show n - 2 + 1 < n by omega)
    have hr := piece_right (y := y) d a
    rw [show n - 2 + 1 = n - 1 by omega, knot_last hn] at hr
    rw [hr]
    unfold row lo hi
    rw [if_neg (by omega : n - 1 ≠ 0), if_neg (by omega : ¬ n - 1 + 1 < n), show n - 1 + 1 = n by omega, knot_last hn,
      show n - 1 - 1 = n - 2 by omega]
    constructor <;> intro h <;> linarith
  have e2 : ∀ j, j + 2 < n → (row n x d (j + 1) = y (j + 1 + 1) - y (j + 1) ↔
      (pieceOf n x y d j).eval (quadKnot n x (j + 1) - quadKnot n x j) = (pieceOf n x y d (j + 1)).eval 0) := by
    intro j hj
    rw [piece_right d (knot_step hn hx (by omega)), piece_left d (knot_step hn hx (show j + 1 + 1 < n by omega))]
    unfold row lo hi
    rw [if_neg (by omega : j + 1 ≠ 0), if_pos (by omega : j + 1 + 1 < n), show j + 1 - 1 = j by omega]
    constructor <;> intro h <;> linarith
  constructor
  · intro h
    refine ⟨e0.mp (h 0 (by omega)), e1.mp ?_, fun j hj => (e2 j hj).mp (h (j + 1) (by omega))⟩
    have := h (n - 1) (by omega)
    rwa [show n - 1 + 1 = n by omega] at this
  · rintro ⟨h0, h1, h2⟩ i hi
    rcases Nat.eq_zero_or_pos i with rfl | hpos
    · exact e0.mpr h0
    by_cases hl : i = n - 1
    · rw [hl, show n - 1 + 1 = n by omega]; exact e1.mpr h1
    · obtain ⟨j, rfl⟩ : ∃ j, i = j + 1 := ⟨i - 1, by omega⟩
      exact (e2 j (by omega)).mpr (h2 j (by omega))

/-- Every table with at least three rows and increasing abscissae has a quadratic spline. -/
theorem exists_spline (hn : 2 ≤ n) (hx : ∀ i < n, x i < x (i + 1)) : ∃ p, IsQuadSpline n x y p := by
  obtain ⟨d, hd⟩ := exists_slopes (y := y) hn hx
  obtain ⟨c0, c1, c2⟩ := (conditions_iff hn hx d).mp hd
  refine ⟨pieceOf n x y d, ?_, c0, c1, c2, ?_⟩
  · intro j hj
    simp only [pieceOf, Quad.eval]
    ring
  · intro j hj
    have := knot_step hn hx (show j + 1 < n by omega)
    simp only [pieceOf, Quad.slope]
    field_simp
    ring

theorem slopes_row (hn : 2 ≤ n) (hx : ∀ i < n, x i < x (i + 1)) {p : ℕ → Quad} (hp : IsQuadSpline n x y p) :
    ∀ i < n, row n x (endSlope n x p) i = y (i + 1) - y i := by
  have he := piece_eq hn hx hp
  refine (conditions_iff hn hx _).mpr ⟨?_, ?_, fun j hj => ?_⟩
  · rw [← he 0 (by omega)]; exact hp.first
  · rw [← he (n - 2) (by omega)]; exact hp.last
  · rw [← he j (by omega), ← he (j + 1) (by omega)]; exact hp.value j hj

/-- … and only one. -/
theorem unique_spline (hn : 2 ≤ n) (hx : ∀ i < n, x i < x (i + 1)) {p q : ℕ → Quad}
    (hp : IsQuadSpline n x y p) (hq : IsQuadSpline n x y q) : ∀ j, j + 1 < n → p j = q j := by
  have hz := system_injective (d := fun i => endSlope n x p i - endSlope n x q i) hn hx fun i hi => by
    have a := slopes_row hn hx hp i hi
    have b := slopes_row hn hx hq i hi
    simp only [row] at a b ⊢; linarith
  intro j hj
  rw [piece_eq hn hx hp j hj, piece_eq hn hx hq j hj]
  have a : endSlope n x p j = endSlope n x q j := by linarith [hz j (by omega)]
  have b : endSlope n x p (j + 1) = endSlope n x q (j + 1) := by linarith [hz (j + 1) (by omega)]
  simp only [pieceOf, a, b]

end AMAT.QuadSpline
