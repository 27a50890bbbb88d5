import Verif.Lemmas.Spline
import Verif.Lemmas.Interp
import Mathlib.Data.List.GetD
import Mathlib.Topology.Order.OrderClosed
import Mathlib.Topology.ContinuousOn
import Mathlib.Topology.Algebra.Ring.Real

/-
Property C84: the default (cubic) lookup of an atmosphere file.
-/

noncomputable section

open Classical

namespace AMAT.Props

open AMAT AMAT.Spline

theorem sorted_getD_lt {l : List (ℝ × ℝ)} (h : l.Pairwise (fun a b => a.1 < b.1)) {i : ℕ}
    (hi : i + 1 < l.length) : (l.getD i (0, 0)).1 < (l.getD (i + 1) (0, 0)).1 := by
  rw [List.getD_eq_getElem _ _ (by omega), List.getD_eq_getElem _ _ hi]
  exact List.pairwise_iff_getElem.mp h i (i + 1) (by omega) hi (by omega)

/-- Every point of the table range lies in one of its intervals. -/
theorem exists_interval {x : ℕ → ℝ} {n : ℕ} (hn : 0 < n) {t : ℝ} (h0 : x 0 ≤ t) (h1 : t ≤ x n) :
    ∃ i < n, x i ≤ t ∧ t ≤ x (i + 1) := by
  induction n with
  | zero => omega
  | succ k ih =>
    rcases Nat.eq_zero_or_pos k with rfl | hk
    · exact ⟨0, by omega, h0, h1⟩
    · rcases le_total t (x k) with h | h
      · obtain ⟨i, hi, h2⟩ := ih hk h
        exact ⟨i, by omega, h2⟩
      · exact ⟨k, by omega, h, h1⟩

theorem increasing_le {x : ℕ → ℝ} {n : ℕ} (hx : ∀ i < n, x i < x (i + 1)) {i j : ℕ} (hij : i ≤ j)
    (hj : j ≤ n) : x i ≤ x j := by
  induction j with
  | zero => have : i = 0 := by omega
            rw [this]
  | succ k ih =>
    rcases Nat.lt_or_ge k i with h | h
    · have : i = k + 1 := by omega
      rw [this]
    · exact (ih h (by omega)).trans (hx k (by omega)).le

theorem increasing_lt {x : ℕ → ℝ} {n : ℕ} (hx : ∀ i < n, x i < x (i + 1)) {i j : ℕ} (hij : i < j)
    (hj : j ≤ n) : x i < x j :=
  (hx i (by omega)).trans_le (increasing_le hx hij hj)

theorem continuous_of_pieces {x : ℕ → ℝ} {n : ℕ} (hx : ∀ i < n, x i < x (i + 1)) {f : ℝ → ℝ}
    (hf : ∀ i < n, ContinuousOn f (Set.Icc (x i) (x (i + 1)))) :
    ContinuousOn f (Set.Icc (x 0) (x n)) := by
  induction n with
  | zero => simp
  | succ k ih =>
    have h1 := ih (fun i hi => hx i (by omega)) (fun i hi => hf i (by omega))
    have h0k : x 0 ≤ x k := increasing_le (n := k + 1) hx (Nat.zero_le k) (by omega)
    rw [← Set.Icc_union_Icc_eq_Icc h0k (hx k (by omega)).le]
    exact h1.union_of_isClosed (hf k (by omega)) isClosed_Icc isClosed_Icc

/-- The pieces of the spline joined to one function. -/
def joinedPieces (n : ℕ) (x : ℕ → ℝ) (p : ℕ → Cubic) (fill : ℝ) (t : ℝ) : ℝ :=
  if h : ∃ i < n, x i ≤ t ∧ t ≤ x (i + 1) then (p (Nat.find h)).eval (t - x (Nat.find h)) else fill

theorem joinedPieces_eq {n : ℕ} {x y : ℕ → ℝ} (hx : ∀ i < n, x i < x (i + 1)) {p : ℕ → Cubic}
    (hp : IsNotAKnot n x y p) (fill : ℝ) {i : ℕ} (hi : i < n) {t : ℝ} (h0 : x i ≤ t)
    (h1 : t ≤ x (i + 1)) : joinedPieces n x p fill t = (p i).eval (t - x i) := by
  have hex : ∃ i < n, x i ≤ t ∧ t ≤ x (i + 1) := ⟨i, hi, h0, h1⟩
  unfold joinedPieces
  rw [dif_pos hex]
  obtain ⟨hj, j0, j1⟩ := Nat.find_spec hex
  have hle : Nat.find hex ≤ i := Nat.find_min' hex ⟨hi, h0, h1⟩
  set j := Nat.find hex
  rcases Nat.eq_or_lt_of_le hle with h | h
  · rw [h]
  · -- then `t` is the common node
    have h2 : x (j + 1) ≤ x i := increasing_le hx h hi.le
    have ht : t = x i := le_antisymm (j1.trans h2) h0
    have hji : x (j + 1) = x i := le_antisymm h2 (ht ▸ j1)
    have hj1 : j + 1 = i := by
      by_contra hne
      have := increasing_lt hx (show j + 1 < i by omega) hi.le
      linarith
    rw [ht, ← hj1, hp.right j hj, hj1, sub_self, hp.left i hi]

/-- C84: for every file with at least four rows at distinct heights the default interpolation exists,
and the value between the first and the last height is determined by the rows alone; below and above it
is the fill value.  The order of the rows in the file does not matter. -/
theorem C84_lookup_exists_unique (rows : List (ℝ × ℝ)) (hl : 4 ≤ rows.length)
    (hd : rows.Pairwise (fun p q => p.1 ≠ q.1)) (fill : ℝ) :
    (∃ f, IsCubicInterp rows fill f) ∧
    ∀ (rows' : List (ℝ × ℝ)) (f g : ℝ → ℝ), rows'.Perm rows → IsCubicInterp rows fill f →
      IsCubicInterp rows' fill g → f = g := by
  have hs := sortedNodes_lt rows hd
  have hlen := sortedNodes_length rows
  have hx : ∀ i < rows.length - 1, ((sortedNodes rows).getD i (0, 0)).1 <
      ((sortedNodes rows).getD (i + 1) (0, 0)).1 := by
    intro i hi; exact sorted_getD_lt hs (by omega)
  constructor
  · obtain ⟨p, hp⟩ := exists_spline (n := rows.length - 1)
      (x := fun i => ((sortedNodes rows).getD i (0, 0)).1)
      (y := fun i => ((sortedNodes rows).getD i (0, 0)).2) (by omega) hx
    refine ⟨joinedPieces (rows.length - 1) (fun i => ((sortedNodes rows).getD i (0, 0)).1) p fill,
      by omega, hx, p, hp, ?_, ?_⟩
    · intro i hi t h0 h1
      exact joinedPieces_eq hx hp fill hi h0 h1
    · intro t ht
      unfold joinedPieces
      rw [dif_neg]
      rintro ⟨i, hi, h0, h1⟩
      have a := increasing_le hx (Nat.zero_le i) (by omega)
      have b := increasing_le hx (show i + 1 ≤ rows.length - 1 by omega) le_rfl
      simp only at a b h0 h1
      rcases ht with h | h <;> linarith
  · intro rows' f g hperm hf hg
    have hd' : rows'.Pairwise (fun p q => p.1 ≠ q.1) :=
      hperm.pairwise_iff (fun h => Ne.symm h) |>.mpr hd
    have hsame : sortedNodes rows' = sortedNodes rows := by
      refine List.Perm.eq_of_pairwise (le := fun a b => a.1 < b.1) ?_ (sortedNodes_lt rows' hd') hs
        (((sortedNodes_perm rows').trans hperm).trans (sortedNodes_perm rows).symm)
      intro a b _ _ h1 h2
      exact absurd h1 (not_lt.mpr h2.le)
    have hlen' : rows'.length = rows.length := hperm.length_eq
    obtain ⟨-, -, p, hp, hpf, hof⟩ := hf
    obtain ⟨-, -, q, hq, hqg, hog⟩ := hg
    rw [hlen'] at hq hqg hog
    change IsNotAKnot _ (fun i => ((sortedNodes rows').getD i (0, 0)).1)
      (fun i => ((sortedNodes rows').getD i (0, 0)).2) q at hq
    change ∀ i < rows.length - 1, ∀ t, ((sortedNodes rows').getD i (0, 0)).1 ≤ t →
      t ≤ ((sortedNodes rows').getD (i + 1) (0, 0)).1 →
      g t = (q i).eval (t - ((sortedNodes rows').getD i (0, 0)).1) at hqg
    change ∀ t, t < ((sortedNodes rows').getD 0 (0, 0)).1 ∨
      ((sortedNodes rows').getD (rows.length - 1) (0, 0)).1 < t → g t = fill at hog
    rw [hsame] at hq hqg hog
    have hpq := unique_spline (by omega) hx hp hq
    funext t
    by_cases h0 : t < ((sortedNodes rows).getD 0 (0, 0)).1
    · rw [hof t (Or.inl h0), hog t (Or.inl h0)]
    by_cases h1 : ((sortedNodes rows).getD (rows.length - 1) (0, 0)).1 < t
    · rw [hof t (Or.inr h1), hog t (Or.inr h1)]
    obtain ⟨i, hi, a, b⟩ := exists_interval (x := fun i => ((sortedNodes rows).getD i (0, 0)).1)
      (n := rows.length - 1) (by omega) (not_lt.mp h0) (not_lt.mp h1)
    rw [hpf i hi t a b, hqg i hi t a b, hpq i hi]

/-- C84: the default interpolation reproduces every row of the file, is the fill value below and above
all rows, and is continuous in between. -/
theorem C84_reproduces_rows (rows : List (ℝ × ℝ)) (fill : ℝ) (f : ℝ → ℝ)
    (hf : IsCubicInterp rows fill f) :
    (∀ r ∈ rows, f r.1 = r.2) ∧
    (∀ t, (∀ r ∈ rows, t < r.1) ∨ (∀ r ∈ rows, r.1 < t) → f t = fill) ∧
    (∀ r ∈ rows, ∀ r' ∈ rows, ContinuousOn f (Set.Icc r.1 r'.1)) := by
  obtain ⟨hn, hx, p, hp, hpf, hof⟩ := hf
  change ∀ i < rows.length - 1, ((sortedNodes rows).getD i (0, 0)).1 <
      ((sortedNodes rows).getD (i + 1) (0, 0)).1 at hx
  have hlen := sortedNodes_length rows
  have hget : ∀ i < rows.length, (sortedNodes rows).getD i (0, 0) ∈ rows := by
    intro i hi
    rw [List.getD_eq_getElem _ _ (by omega)]
    exact sortedNodes_mem.mp (List.getElem_mem _)
  refine ⟨?_, ?_, ?_⟩
  · intro r hr
    obtain ⟨i, hi, hri⟩ := List.mem_iff_getElem.mp (sortedNodes_mem.mpr hr)
    have hg : (sortedNodes rows).getD i (0, 0) = r := by rw [List.getD_eq_getElem _ _ hi, hri]
    rcases Nat.lt_or_ge i (rows.length - 1) with h | h
    · have := hpf i h r.1
      change ((sortedNodes rows).getD i (0, 0)).1 ≤ r.1 →
        r.1 ≤ ((sortedNodes rows).getD (i + 1) (0, 0)).1 →
        f r.1 = (p i).eval (r.1 - ((sortedNodes rows).getD i (0, 0)).1) at this
      have h2 := hx i h
      rw [hg] at this h2
      rw [this le_rfl h2.le, sub_self]
      have h3 := hp.left i h
      change _ = ((sortedNodes rows).getD i (0, 0)).2 at h3
      rw [h3, hg]
    · have hi' : i = (rows.length - 2) + 1 := by omega
      have hk : rows.length - 2 < rows.length - 1 := by omega
      have := hpf (rows.length - 2) hk r.1
      change ((sortedNodes rows).getD (rows.length - 2) (0, 0)).1 ≤ r.1 →
        r.1 ≤ ((sortedNodes rows).getD (rows.length - 2 + 1) (0, 0)).1 →
        f r.1 = (p (rows.length - 2)).eval (r.1 - ((sortedNodes rows).getD (rows.length - 2) (0, 0)).1) at this
      have h2 := hx (rows.length - 2) hk
      rw [← hi', hg] at this h2
      rw [this h2.le le_rfl]
      have h3 := hp.right (rows.length - 2) hk
      change (p (rows.length - 2)).eval (((sortedNodes rows).getD (rows.length - 2 + 1) (0, 0)).1
        - ((sortedNodes rows).getD (rows.length - 2) (0, 0)).1)
        = ((sortedNodes rows).getD (rows.length - 2 + 1) (0, 0)).2 at h3
      rw [← hi', hg] at h3
      exact h3
  · intro t ht
    apply hof
    rcases ht with h | h
    · exact Or.inl (h _ (hget 0 (by omega)))
    · exact Or.inr (h _ (hget (rows.length - 1) (by omega)))
  · have hcont : ContinuousOn f (Set.Icc ((sortedNodes rows).getD 0 (0, 0)).1
        ((sortedNodes rows).getD (rows.length - 1) (0, 0)).1) := by
      refine continuous_of_pieces (x := fun i => ((sortedNodes rows).getD i (0, 0)).1) hx ?_
      intro i hi
      have : ContinuousOn (fun t => (p i).eval (t - ((sortedNodes rows).getD i (0, 0)).1))
          (Set.Icc ((sortedNodes rows).getD i (0, 0)).1 ((sortedNodes rows).getD (i + 1) (0, 0)).1) := by
        unfold Cubic.eval
        fun_prop
      exact this.congr (fun t ht => hpf i hi t ht.1 ht.2)
    intro r hr r' hr'
    refine hcont.mono (Set.Icc_subset_Icc ?_ ?_)
    · obtain ⟨i, hi, hri⟩ := List.mem_iff_getElem.mp (sortedNodes_mem.mpr hr)
      have hg : (sortedNodes rows).getD i (0, 0) = r := by rw [List.getD_eq_getElem _ _ hi, hri]
      rw [← hg]
      exact increasing_le hx (Nat.zero_le i) (by omega)
    · obtain ⟨i, hi, hri⟩ := List.mem_iff_getElem.mp (sortedNodes_mem.mpr hr')
      have hg : (sortedNodes rows).getD i (0, 0) = r' := by rw [List.getD_eq_getElem _ _ hi, hri]
      rw [← hg]
      exact increasing_le hx (show i ≤ rows.length - 1 by omega) le_rfl

/-- A file with positive, decreasing densities: 1000, 1, 0.1 and 0.01 at heights 0, 1, 2 and 3 km. -/
def steepRows : List (ℝ × ℝ) := [(0, 1000), (1000, 1), (2000, 0.1), (3000, 0.01)]

/-- C84: the claim that positive table densities give a positive density between the rows is false for
the default interpolation: halfway between the second and the third row of `steepRows` the density is
negative. -/
theorem C84_negative_between_rows (fill : ℝ) (f : ℝ → ℝ) (hf : IsCubicInterp steepRows fill f) :
    (∀ r ∈ steepRows, 0 < f r.1) ∧ f 1500 < 0 := by
  have hrep := C84_reproduces_rows _ _ _ hf
  refine ⟨?_, ?_⟩
  · intro r hr
    rw [hrep.1 r hr]
    simp only [steepRows, List.mem_cons, List.not_mem_nil, or_false] at hr
    rcases hr with rfl | rfl | rfl | rfl <;> norm_num
  · obtain ⟨-, -, p, hp, hpf, -⟩ := hf
    have hsort : steepRows.mergeSort (fun a b => decide (a.1 ≤ b.1)) = steepRows := by
      apply List.mergeSort_of_pairwise
      simp [steepRows]
      norm_num
    rw [hsort] at hp hpf
    have hx : ∀ i < 3, (steepRows.getD i (0, 0)).1 < (steepRows.getD (i + 1) (0, 0)).1 := by
      intro i hi
      interval_cases i <;> norm_num [steepRows]
    have hp3 : IsNotAKnot 3 (fun i => (steepRows.getD i (0, 0)).1)
      (fun i => (steepRows.getD i (0, 0)).2) p := hp
    have r0 := row_eq hx hp3 0 (by omega)
    have r1 := row_eq hx hp3 1 (by omega)
    have e0 := endRow_start (by omega) hx hp3
    have e1 := endRow_stop (by omega) hx hp3
    have hpc := piece_eq hx hp3 1 (by omega)
    have hv := hpf 1 (by simp [steepRows]) 1500 (by norm_num [steepRows]) (by norm_num [steepRows])
    rw [hv, hpc]
    simp only [row, endRow, rhs, width, pieceOf, Cubic.eval, steepRows] at r0 r1 e0 e1 ⊢
    norm_num at r0 r1 e0 e1 ⊢
    linarith

/-- Cases for `C84_lookup_exists_unique` and `C84_reproduces_rows`: `steepRows` and the same rows in another order. -/
example : ∃ f, IsCubicInterp steepRows 0 f ∧ f 1000 = 1 ∧ f (-1) = 0 ∧ ContinuousOn f (Set.Icc 0 3000) ∧
    ∀ g, IsCubicInterp [(2000, 0.1), (0, 1000), (3000, 0.01), (1000, 1)] 0 g → f = g := by
  obtain ⟨⟨f, hf⟩, hu⟩ := C84_lookup_exists_unique steepRows (by simp [steepRows]) (by simp only [steepRows]; simp) 0
  obtain ⟨h1, h2, h3⟩ := C84_reproduces_rows _ _ _ hf
  refine ⟨f, hf, h1 (1000, 1) (by simp [steepRows]), h2 (-1) (Or.inl ?_),
    h3 (0, 1000) (by simp [steepRows]) (3000, 0.01) (by simp [steepRows]), fun g hg => hu _ f g ?_ hf hg⟩
  · intro r hr
    simp only [steepRows, List.mem_cons, List.not_mem_nil, or_false] at hr
    rcases hr with rfl | rfl | rfl | rfl <;> norm_num
  · unfold steepRows
    refine (List.Perm.cons _ (List.Perm.cons _ (List.Perm.swap _ _ _))).trans ?_
    refine (List.Perm.swap _ _ _).trans (List.Perm.cons _ ?_)
    exact List.Perm.swap _ _ _

/-- The hypothesis of `C84_negative_between_rows` is met. -/
example : ∃ f, IsCubicInterp steepRows 0 f :=
  (C84_lookup_exists_unique steepRows (by simp [steepRows])
    (by simp only [steepRows]; simp) 0).1

end AMAT.Props
