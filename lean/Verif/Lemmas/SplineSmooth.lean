import Mathlib.Analysis.InnerProductSpace.NormPow
import Mathlib.Analysis.Calculus.ContDiff.Basic
import Mathlib.Analysis.Calculus.ContDiff.Operations
import Verif.Props.CubicAtmosphere

/-
The cubic interpolation of a table is continuously differentiable inside the range of the table.
-/

noncomputable section

open Classical

namespace AMAT.Spline

open AMAT.Props

theorem contDiff_abs_cube : ContDiff ℝ 1 (fun u : ℝ => |u| ^ 3) := by
  have h := contDiff_norm_rpow (E := ℝ) (p := 3) (by norm_num)
  have e : (fun u : ℝ => |u| ^ 3) = fun u : ℝ => ‖u‖ ^ (3 : ℝ) := by
    funext u
    rw [Real.norm_eq_abs]
    norm_cast
  rw [e]
  exact h

/-- The values of two neighbouring pieces around their common node. -/
theorem around_knot {n : ℕ} {x y : ℕ → ℝ} {p : ℕ → Cubic} (hp : IsNotAKnot n x y p) {i : ℕ} (hi : i + 1 < n)
    (u : ℝ) : (p i).eval (x (i + 1) - x i + u) =
      (p (i + 1)).a + (p (i + 1)).b * u + (p (i + 1)).c * u ^ 2 + (p i).d * u ^ 3 := by
  have h1 := hp.right i (by omega)
  have h2 := hp.left (i + 1) hi
  have h3 := hp.slope i hi
  have h4 := hp.curvature i hi
  simp only [Cubic.eval, Cubic.slope, Cubic.curvature] at *
  set w := x (i + 1) - x i
  have ha : (p (i + 1)).a = (p i).a + (p i).b * w + (p i).c * w ^ 2 + (p i).d * w ^ 3 := by linarith
  have hb : (p (i + 1)).b = (p i).b + 2 * (p i).c * w + 3 * (p i).d * w ^ 2 := by linarith
  have hc : (p (i + 1)).c = (p i).c + 3 * (p i).d * w := by linarith
  rw [ha, hb, hc]
  ring

theorem pieces_contDiffAt {n : ℕ} {x y : ℕ → ℝ} (hx : ∀ i < n, x i < x (i + 1)) {p : ℕ → Cubic}
    (hp : IsNotAKnot n x y p) {f : ℝ → ℝ}
    (hf : ∀ i < n, ∀ t, x i ≤ t → t ≤ x (i + 1) → f t = (p i).eval (t - x i)) {t : ℝ} (h0 : x 0 < t)
    (h1 : t < x n) : ContDiffAt ℝ 1 f t := by
  have hn : 0 < n := by
    rcases Nat.eq_zero_or_pos n with rfl | h
    · exact absurd (h0.trans h1) (lt_irrefl _)
    · exact h
  obtain ⟨i, hi, a, b⟩ := exists_interval hn h0.le h1.le
  have knot : ∀ j, j + 1 < n → t = x (j + 1) → ContDiffAt ℝ 1 f t := by
    intro j hj htj
    have hpoly : ContDiff ℝ 1 (fun s : ℝ => (p (j + 1)).a + (p (j + 1)).b * (s - t) + (p (j + 1)).c * (s - t) ^ 2
        + ((p j).d + (p (j + 1)).d) / 2 * (s - t) ^ 3 + ((p (j + 1)).d - (p j).d) / 2 * |s - t| ^ 3) := by
      have hab : ContDiff ℝ 1 (fun s : ℝ => |s - t| ^ 3) := contDiff_abs_cube.comp (contDiff_id.sub contDiff_const)
      fun_prop
    refine hpoly.contDiffAt.congr_of_eventuallyEq ?_
    have hnb : Set.Ioo (x j) (x (j + 2)) ∈ nhds t := by
      rw [htj]
      exact Ioo_mem_nhds (hx j (by omega)) (hx (j + 1) hj)
    filter_upwards [hnb] with s hs
    rcases le_total s t with h | h
    · rw [hf j (by omega) s hs.1.le (by rw [← htj]; exact h)]
      have e : s - x j = x (j + 1) - x j + (s - t) := by rw [htj]; ring
      rw [e, around_knot hp hj, abs_of_nonpos (by linarith)]
      ring
    · rw [hf (j + 1) hj s (by rw [← htj]; exact h) hs.2.le, ← htj, abs_of_nonneg (by linarith)]
      simp only [Cubic.eval]
      ring
  rcases eq_or_lt_of_le a with ha | ha
  · rcases Nat.eq_zero_or_pos i with rfl | hpos
    · exact absurd ha h0.ne
    · obtain ⟨j, rfl⟩ : ∃ j, i = j + 1 := ⟨i - 1, by omega⟩
      exact knot j hi ha.symm
  rcases eq_or_lt_of_le b with hb | hb
  · have hin : i + 1 < n := by
      by_contra hc
      have : i + 1 = n := by omega
      rw [this] at hb
      exact absurd hb h1.ne
    exact knot i hin hb
  · have hpoly : ContDiff ℝ 1 (fun s : ℝ => (p i).a + (p i).b * (s - x i) + (p i).c * (s - x i) ^ 2
        + (p i).d * (s - x i) ^ 3) := by fun_prop
    refine hpoly.contDiffAt.congr_of_eventuallyEq ?_
    filter_upwards [Ioo_mem_nhds ha hb] with s hs
    exact hf i hi s hs.1.le hs.2.le

/-- Between the lowest and the highest abscissa of the table the cubic interpolation is continuously
differentiable. -/
theorem interp_contDiffAt {rows : List (ℝ × ℝ)} {fill : ℝ} {f : ℝ → ℝ} (hf : IsCubicInterp rows fill f) {t : ℝ}
    {r r' : ℝ × ℝ} (hr : r ∈ rows) (hr' : r' ∈ rows) (h0 : r.1 < t) (h1 : t < r'.1) : ContDiffAt ℝ 1 f t := by
  obtain ⟨hn, hx, p, hp, hpf, -⟩ := hf
  change ∀ i < rows.length - 1, ((sortedNodes rows).getD i (0, 0)).1 <
      ((sortedNodes rows).getD (i + 1) (0, 0)).1 at hx
  have hlen := sortedNodes_length rows
  have hidx : ∀ q ∈ rows, ∃ i, i ≤ rows.length - 1 ∧ ((sortedNodes rows).getD i (0, 0)).1 = q.1 := by
    intro q hq
    obtain ⟨i, hi, hri⟩ := List.mem_iff_getElem.mp (sortedNodes_mem.mpr hq)
    exact ⟨i, by omega, by rw [List.getD_eq_getElem _ _ hi, hri]⟩
  obtain ⟨i, hi, ei⟩ := hidx r hr
  obtain ⟨j, hj, ej⟩ := hidx r' hr'
  refine pieces_contDiffAt (x := fun i => ((sortedNodes rows).getD i (0, 0)).1) hx hp hpf ?_ ?_
  · have := increasing_le hx (Nat.zero_le i) hi
    linarith
  · have := increasing_le hx hj le_rfl
    linarith

/-- To the left of every point of the table's range, other than its lower end, the cubic interpolation is a polynomial. -/
theorem interp_left_polynomial {rows : List (ℝ × ℝ)} {fill : ℝ} {f : ℝ → ℝ} (hf : IsCubicInterp rows fill f) {t : ℝ}
    {r r' : ℝ × ℝ} (hr : r ∈ rows) (hr' : r' ∈ rows) (h0 : r.1 < t) (h1 : t ≤ r'.1) :
    ∃ q : ℝ → ℝ, ContDiff ℝ 1 q ∧ ∃ c < t, ∀ s, c ≤ s → s ≤ t → f s = q s := by
  obtain ⟨hn, hx, p, hp, hpf, -⟩ := hf
  change ∀ i < rows.length - 1, ((sortedNodes rows).getD i (0, 0)).1 <
      ((sortedNodes rows).getD (i + 1) (0, 0)).1 at hx
  have hlen := sortedNodes_length rows
  have hidx : ∀ q ∈ rows, ∃ i, i ≤ rows.length - 1 ∧ ((sortedNodes rows).getD i (0, 0)).1 = q.1 := by
    intro q hq
    obtain ⟨i, hi, hri⟩ := List.mem_iff_getElem.mp (sortedNodes_mem.mpr hq)
    exact ⟨i, by omega, by rw [List.getD_eq_getElem _ _ hi, hri]⟩
  obtain ⟨i, hi, ei⟩ := hidx r hr
  obtain ⟨j, hj, ej⟩ := hidx r' hr'
  have hex : ∃ k, t ≤ ((sortedNodes rows).getD k (0, 0)).1 := ⟨j, by rw [ej]; exact h1⟩
  have hk := Nat.find_spec hex
  have hmin := fun m (hm : m < Nat.find hex) => Nat.find_min hex hm
  have hkj : Nat.find hex ≤ j := Nat.find_min' hex (by rw [ej]; exact h1)
  have hk0 : Nat.find hex ≠ 0 := by
    intro h
    rw [h] at hk
    have := increasing_le hx (Nat.zero_le i) hi
    linarith
  obtain ⟨k, hkk⟩ := Nat.exists_eq_succ_of_ne_zero hk0
  rw [hkk] at hk hkj
  have hlt : ((sortedNodes rows).getD k (0, 0)).1 < t := not_le.mp (hmin k (by omega))
  refine ⟨fun s => (p k).eval (s - ((sortedNodes rows).getD k (0, 0)).1), ?_, _, hlt, fun s a b => ?_⟩
  · unfold Cubic.eval; fun_prop
  · exact hpf k (by omega) s a (b.trans hk)

end AMAT.Spline
