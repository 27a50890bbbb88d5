import Verif.Lemmas.QuadSpline
import Verif.Props.CubicAtmosphere

/-
Property C134: the quadratic lookup of an atmosphere file.
-/

noncomputable section

open Classical

namespace AMAT.Props

open AMAT AMAT.QuadSpline

/-- The pieces of the quadratic spline joined to one function. -/
def joinedQuads (n : ℕ) (x : ℕ → ℝ) (p : ℕ → Quad) (fill : ℝ) (t : ℝ) : ℝ :=
  if h : ∃ j < n - 1, quadKnot n x j ≤ t ∧ t ≤ quadKnot n x (j + 1) then
    (p (Nat.find h)).eval (t - quadKnot n x (Nat.find h)) else fill

theorem joinedQuads_eq {n : ℕ} {x y : ℕ → ℝ} (hn : 2 ≤ n) (hx : ∀ i < n, x i < x (i + 1)) {p : ℕ → Quad}
    (hp : IsQuadSpline n x y p) (fill : ℝ) {j : ℕ} (hj : j + 1 < n) {t : ℝ} (h0 : quadKnot n x j ≤ t)
    (h1 : t ≤ quadKnot n x (j + 1)) : joinedQuads n x p fill t = (p j).eval (t - quadKnot n x j) := by
  have hκ : ∀ j < n - 1, quadKnot n x j < quadKnot n x (j + 1) := fun j hj => by
    have := knot_step hn hx (show j + 1 < n by omega); linarith
  have hex : ∃ j < n - 1, quadKnot n x j ≤ t ∧ t ≤ quadKnot n x (j + 1) := ⟨j, by omega, h0, h1⟩
  unfold joinedQuads
  rw [dif_pos hex]
  obtain ⟨hi, i0, i1⟩ := Nat.find_spec hex
  have hle : Nat.find hex ≤ j := Nat.find_min' hex ⟨by omega, h0, h1⟩
  set i := Nat.find hex
  rcases Nat.eq_or_lt_of_le hle with h | h
  · rw [h]
  · have h2 : quadKnot n x (i + 1) ≤ quadKnot n x j := increasing_le hκ h (by omega)
    have ht : t = quadKnot n x j := le_antisymm (i1.trans h2) h0
    have hij : i + 1 = j := by
      by_contra hne
      have := increasing_lt hκ (show i + 1 < j by omega) (by omega)
      linarith
    rw [ht, ← hij, sub_self, ← hp.value i (by omega)]

/-- C134: for every file with at least three rows at distinct heights the quadratic interpolation exists, and the value
between the first and the last height is determined by the rows alone; below and above it is the fill value.  The order of
the rows in the file does not matter. -/
theorem C134_lookup_exists_unique (rows : List (ℝ × ℝ)) (hl : 3 ≤ rows.length)
    (hd : rows.Pairwise (fun p q => p.1 ≠ q.1)) (fill : ℝ) :
    (∃ f, IsQuadInterp rows fill f) ∧
    ∀ (rows' : List (ℝ × ℝ)) (f g : ℝ → ℝ), rows'.Perm rows → IsQuadInterp rows fill f →
      IsQuadInterp rows' fill g → f = g := by
  have hs := sortedNodes_lt rows hd
  have hlen := sortedNodes_length rows
  set x := fun i => ((sortedNodes rows).getD i (0, 0)).1 with hxd
  set y := fun i => ((sortedNodes rows).getD i (0, 0)).2 with hyd
  set n := rows.length - 1 with hnd
  have hn : 2 ≤ n := by omega
  have hx : ∀ i < n, x i < x (i + 1) := by
    intro i hi; exact sorted_getD_lt hs (by omega)
  have hκ : ∀ j < n - 1, quadKnot n x j < quadKnot n x (j + 1) := fun j hj => by
    have := knot_step hn hx (show j + 1 < n by omega); linarith
  constructor
  · obtain ⟨p, hp⟩ := exists_spline (y := y) hn hx
    refine ⟨joinedQuads n x p fill, hn, hx, p, hp, fun j hj t h0 h1 => joinedQuads_eq hn hx hp fill hj h0 h1, ?_⟩
    intro t ht
    unfold joinedQuads
    rw [dif_neg]
    rintro ⟨j, hj, h0, h1⟩
    have a := increasing_le hκ (Nat.zero_le j) (by omega)
    have b := increasing_le hκ (show j + 1 ≤ n - 1 by omega) le_rfl
    rw [knot_zero] at a
    rw [knot_last hn] at b
    change t < x 0 ∨ x n < t at ht
    rcases ht with h | h <;> linarith
  · intro rows' f g hperm hf hg
    have hd' : rows'.Pairwise (fun p q => p.1 ≠ q.1) :=
      hperm.pairwise_iff (fun h => Ne.symm h) |>.mpr hd
    have hsame : sortedNodes rows' = sortedNodes rows := by
      refine List.Perm.eq_of_pairwise (le := fun a b => a.1 < b.1) ?_ (sortedNodes_lt rows' hd') hs
        (((sortedNodes_perm rows').trans hperm).trans (sortedNodes_perm rows).symm)
      intro a b _ _ h1 h2
      exact absurd h1 (not_lt.mpr h2.le)
    have hlen' : rows'.length - 1 = n := by rw [hperm.length_eq]
    have hf' : ∃ p : ℕ → Quad, IsQuadSpline n x y p ∧
        (∀ j, j + 1 < n → ∀ t, quadKnot n x j ≤ t → t ≤ quadKnot n x (j + 1) → f t = (p j).eval (t - quadKnot n x j)) ∧
        (∀ t, t < x 0 ∨ x n < t → f t = fill) := hf.2.2
    have hg' : ∃ p : ℕ → Quad, IsQuadSpline n x y p ∧
        (∀ j, j + 1 < n → ∀ t, quadKnot n x j ≤ t → t ≤ quadKnot n x (j + 1) → g t = (p j).eval (t - quadKnot n x j)) ∧
        (∀ t, t < x 0 ∨ x n < t → g t = fill) := by
      have := hg.2.2
      have hm : rows'.mergeSort (fun a b => decide (a.1 ≤ b.1)) = sortedNodes rows := hsame
      simp only [hm, hlen'] at this
      exact this
    obtain ⟨p, hp, hpf, hof⟩ := hf'
    obtain ⟨q, hq, hqg, hog⟩ := hg'
    have hpq := unique_spline hn hx hp hq
    funext t
    by_cases h0 : t < x 0
    · rw [hof t (Or.inl h0), hog t (Or.inl h0)]
    by_cases h1 : x n < t
    · rw [hof t (Or.inr h1), hog t (Or.inr h1)]
    obtain ⟨j, hj, a, b⟩ := exists_interval (x := quadKnot n x) (n := n - 1) (t := t) (by omega)
      (by rw [knot_zero]; exact not_lt.mp h0) (by rw [knot_last hn]; exact not_lt.mp h1)
    rw [hpf j (by omega) t a b, hqg j (by omega) t a b, hpq j (by omega)]

/-- C134: the quadratic interpolation reproduces every row of the file, is the fill value below and above all rows, and is
continuous in between. -/
theorem C134_reproduces_rows (rows : List (ℝ × ℝ)) (fill : ℝ) (f : ℝ → ℝ) (hf : IsQuadInterp rows fill f) :
    (∀ r ∈ rows, f r.1 = r.2) ∧
    (∀ t, (∀ r ∈ rows, t < r.1) ∨ (∀ r ∈ rows, r.1 < t) → f t = fill) ∧
    (∀ r ∈ rows, ∀ r' ∈ rows, ContinuousOn f (Set.Icc r.1 r'.1)) := by
  have hlen := sortedNodes_length rows
  set x := fun i => ((sortedNodes rows).getD i (0, 0)).1 with hxd
  set y := fun i => ((sortedNodes rows).getD i (0, 0)).2 with hyd
  set n := rows.length - 1 with hnd
  have hn : 2 ≤ n := hf.1
  have hx : ∀ i < n, x i < x (i + 1) := hf.2.1
  have hf' : ∃ p : ℕ → Quad, IsQuadSpline n x y p ∧
      (∀ j, j + 1 < n → ∀ t, quadKnot n x j ≤ t → t ≤ quadKnot n x (j + 1) → f t = (p j).eval (t - quadKnot n x j)) ∧
      (∀ t, t < x 0 ∨ x n < t → f t = fill) := hf.2.2
  obtain ⟨p, hp, hpf, hof⟩ := hf'
  have hκ : ∀ j < n - 1, quadKnot n x j < quadKnot n x (j + 1) := fun j hj => by
    have := knot_step hn hx (show j + 1 < n by omega); linarith
  have hget : ∀ i < rows.length, (sortedNodes rows).getD i (0, 0) ∈ rows := by
    intro i hi
    rw [List.getD_eq_getElem _ _ (by omega)]
    exact sortedNodes_mem.mp (List.getElem_mem _)
  have hidx : ∀ r ∈ rows, ∃ i ≤ n, x i = r.1 ∧ y i = r.2 := by
    intro r hr
    obtain ⟨i, hi, hri⟩ := List.mem_iff_getElem.mp (sortedNodes_mem.mpr hr)
    have hg : (sortedNodes rows).getD i (0, 0) = r := by rw [List.getD_eq_getElem _ _ hi, hri]
    exact ⟨i, by omega, by rw [hxd]; simp only [hg], by rw [hyd]; simp only [hg]⟩
  refine ⟨?_, ?_, ?_⟩
  · intro r hr
    obtain ⟨i, hi, e1, e2⟩ := hidx r hr
    rw [← e1, ← e2]
    rcases Nat.eq_zero_or_pos i with rfl | hpos
    · have := hpf 0 (by omega) (x 0) (by rw [knot_zero]) (by
        have := hκ 0 (by omega)
        rw [knot_zero] at this
        exact this.le)
      rw [this, knot_zero, sub_self, hp.first]
    by_cases hl : i = n
    · rw [hl]
      have := hpf (n - 2) (by omega) (x n) (by
          rw [← knot_last (x := x) hn]; exact increasing_le hκ (by omega) (by omega))
        (by rw [show n - 2 + 1 = n - 1 by omega, knot_last hn])
      rw [this, hp.last]
    · obtain ⟨j, rfl⟩ : ∃ j, i = j + 1 := ⟨i - 1, by omega⟩
      have hk := knot_lt hn hx (show j + 1 < n by omega)
      rw [hpf j (by omega) (x (j + 1)) hk.1.le hk.2.le, hp.node j (by omega)]
  · intro t ht
    apply hof
    rcases ht with h | h
    · exact Or.inl (h _ (hget 0 (by omega)))
    · exact Or.inr (h _ (hget n (by omega)))
  · have hcont : ContinuousOn f (Set.Icc (x 0) (x n)) := by
      rw [← knot_zero (n := n) (x := x), ← knot_last (x := x) hn]
      refine continuous_of_pieces (x := quadKnot n x) hκ ?_
      intro j hj
      have : ContinuousOn (fun t => (p j).eval (t - quadKnot n x j)) (Set.Icc (quadKnot n x j) (quadKnot n x (j + 1))) := by
        unfold Quad.eval
        fun_prop
      exact this.congr (fun t ht => hpf j (by omega) t ht.1 ht.2)
    intro r hr r' hr'
    obtain ⟨i, hi, e1, -⟩ := hidx r hr
    obtain ⟨k, hk, e2, -⟩ := hidx r' hr'
    rw [← e1, ← e2]
    exact hcont.mono (Set.Icc_subset_Icc (increasing_le hx (Nat.zero_le i) hi) (increasing_le hx hk le_rfl))

/-- C134: a column that is a polynomial of degree two in the height is reproduced between the rows. -/
theorem C134_parabola (rows : List (ℝ × ℝ)) (fill : ℝ) (f : ℝ → ℝ) (hf : IsQuadInterp rows fill f) (A B C : ℝ)
    (hq : ∀ r ∈ rows, r.2 = A + B * r.1 + C * r.1 ^ 2) :
    ∀ r ∈ rows, ∀ r' ∈ rows, ∀ t, r.1 ≤ t → t ≤ r'.1 → f t = A + B * t + C * t ^ 2 := by
  have hlen := sortedNodes_length rows
  set x := fun i => ((sortedNodes rows).getD i (0, 0)).1 with hxd
  set y := fun i => ((sortedNodes rows).getD i (0, 0)).2 with hyd
  set n := rows.length - 1 with hnd
  have hn : 2 ≤ n := hf.1
  have hx : ∀ i < n, x i < x (i + 1) := hf.2.1
  have hf' : ∃ p : ℕ → Quad, IsQuadSpline n x y p ∧
      (∀ j, j + 1 < n → ∀ t, quadKnot n x j ≤ t → t ≤ quadKnot n x (j + 1) → f t = (p j).eval (t - quadKnot n x j)) ∧
      (∀ t, t < x 0 ∨ x n < t → f t = fill) := hf.2.2
  obtain ⟨p, hp, hpf, -⟩ := hf'
  have hy : ∀ i ≤ n, y i = A + B * x i + C * x i ^ 2 := by
    intro i hi
    refine hq ((sortedNodes rows).getD i (0, 0)) ?_
    rw [List.getD_eq_getElem _ _ (by omega)]
    exact sortedNodes_mem.mp (List.getElem_mem _)
  -- the pieces of the polynomial itself
  set q : ℕ → Quad := fun j => ⟨A + B * quadKnot n x j + C * quadKnot n x j ^ 2, B + 2 * C * quadKnot n x j, C⟩ with hqd
  have hev : ∀ j u, (q j).eval u = A + B * (quadKnot n x j + u) + C * (quadKnot n x j + u) ^ 2 := by
    intro j u; simp only [hqd, Quad.eval]; ring
  have hsl : ∀ j u, (q j).slope u = B + 2 * C * (quadKnot n x j + u) := by
    intro j u; simp only [hqd, Quad.slope]; ring
  have hQ : IsQuadSpline n x y q := by
    refine ⟨fun j hj => ?_, ?_, ?_, fun j hj => ?_, fun j hj => ?_⟩
    · rw [hev, hy (j + 1) (by omega)]; ring
    · rw [hev, hy 0 (by omega), knot_zero]; ring
    · rw [hev, hy n le_rfl]; ring
    · rw [hev, hev]; ring
    · rw [hsl, hsl]; ring
  have hpq := unique_spline hn hx hp hQ
  intro r hr r' hr' t h0 h1
  have hidx : ∀ r ∈ rows, ∃ i ≤ n, x i = r.1 := by
    intro r hr
    obtain ⟨i, hi, hri⟩ := List.mem_iff_getElem.mp (sortedNodes_mem.mpr hr)
    have hg : (sortedNodes rows).getD i (0, 0) = r := by rw [List.getD_eq_getElem _ _ hi, hri]
    exact ⟨i, by omega, by rw [hxd]; simp only [hg]⟩
  obtain ⟨i, hi, e1⟩ := hidx r hr
  obtain ⟨k, hk, e2⟩ := hidx r' hr'
  obtain ⟨j, hj, a, b⟩ := exists_interval (x := quadKnot n x) (n := n - 1) (t := t) (by omega)
    (by rw [knot_zero]; exact (increasing_le hx (Nat.zero_le i) hi).trans (e1 ▸ h0))
    (by rw [knot_last hn]; exact (e2 ▸ h1 : t ≤ x k).trans (increasing_le hx hk le_rfl))
  rw [hpf j (by omega) t a b, hpq j (by omega), hev]
  ring

/-- C134: every atmosphere file with at least three rows at distinct heights is loaded, in exactly one way. -/
theorem C134_loads (P : Planet) (km : Bool) (rows : List AtmRow) (hl : 3 ≤ rows.length)
    (hd : rows.Pairwise (fun r s => r.height ≠ s.height)) :
    ∃ T p ρ a, (∀ atm : Atmosphere, LoadedQuad P km rows atm ↔
        atm.tempInt = T ∧ atm.pressureInt = p ∧ atm.densityInt = ρ ∧ atm.sonicInt = a) ∧
      ∀ r ∈ rows, T (atmHeight km r) = r.temp ∧ p (atmHeight km r) = r.pres ∧ ρ (atmHeight km r) = r.dens ∧
        a (atmHeight km r) = Real.sqrt (P.CPCV * r.pres / r.dens) := by
  have hh : ∀ r s : AtmRow, r.height ≠ s.height → atmHeight km r ≠ atmHeight km s := by
    intro r s h
    unfold atmHeight
    split_ifs
    · exact fun hc => h (mul_right_cancel₀ (by norm_num) hc)
    · exact h
  have key : ∀ (c : AtmRow → ℝ) (fill : ℝ), ∃ f, (∀ g, IsQuadInterp (rows.map fun r => (atmHeight km r, c r)) fill g ↔ g = f) ∧
      ∀ r ∈ rows, f (atmHeight km r) = c r := by
    intro c fill
    obtain ⟨⟨f, hf⟩, hu⟩ := C134_lookup_exists_unique (rows.map fun r => (atmHeight km r, c r)) (by simpa using hl)
      (by rw [List.pairwise_map]; exact hd.imp fun h => hh _ _ h) fill
    refine ⟨f, fun g => ⟨fun hg => (hu _ f g (List.Perm.refl _) hf hg).symm, fun h => h ▸ hf⟩, fun r hr => ?_⟩
    exact (C134_reproduces_rows _ _ _ hf).1 (atmHeight km r, c r) (List.mem_map.mpr ⟨r, hr, rfl⟩)
  obtain ⟨T, t1, t2⟩ := key (fun r => r.temp) 0
  obtain ⟨p, p1, p2⟩ := key (fun r => r.pres) 0
  obtain ⟨ρ, d1, d2⟩ := key (fun r => r.dens) 0
  obtain ⟨a, a1, a2⟩ := key (fun r => Real.sqrt (P.CPCV * r.pres / r.dens)) 1e20
  exact ⟨T, p, ρ, a, fun atm => by unfold LoadedQuad; rw [t1, p1, d1, a1], fun r hr => ⟨t2 r hr, p2 r hr, d2 r hr, a2 r hr⟩⟩

/-- The first three rows of `steepRows`: densities 1000, 1 and 0.1 at heights 0, 1 and 2 km. -/
def steepRows3 : List (ℝ × ℝ) := [(0, 1000), (1000, 1), (2000, 0.1)]

/-- C134: the claim that positive table densities give a positive density between the rows is false for the quadratic
interpolation too. -/
theorem C134_negative_between_rows (fill : ℝ) (f : ℝ → ℝ) (hf : IsQuadInterp steepRows3 fill f) :
    (∀ r ∈ steepRows3, 0 < f r.1) ∧ f 1500 < 0 := by
  refine ⟨?_, ?_⟩
  · intro r hr
    rw [(C134_reproduces_rows _ _ _ hf).1 r hr]
    simp only [steepRows3, List.mem_cons, List.not_mem_nil, or_false] at hr
    rcases hr with rfl | rfl | rfl <;> norm_num
  · have := C134_parabola _ _ _ hf 1000 (-1.49805) 0.00049905 (by
      intro r hr
      simp only [steepRows3, List.mem_cons, List.not_mem_nil, or_false] at hr
      rcases hr with rfl | rfl | rfl <;> norm_num) (0, 1000) (by simp [steepRows3]) (2000, 0.1) (by simp [steepRows3])
      1500 (by norm_num) (by norm_num)
    rw [this]
    norm_num

/-- C84: likewise a column that is a polynomial of degree three in the height is reproduced by the default lookup. -/
theorem C84_cubic_columns (rows : List (ℝ × ℝ)) (fill : ℝ) (f : ℝ → ℝ) (hf : IsCubicInterp rows fill f) (A B C D : ℝ)
    (hq : ∀ r ∈ rows, r.2 = A + B * r.1 + C * r.1 ^ 2 + D * r.1 ^ 3) :
    ∀ r ∈ rows, ∀ r' ∈ rows, ∀ t, r.1 ≤ t → t ≤ r'.1 → f t = A + B * t + C * t ^ 2 + D * t ^ 3 := by
  have hlen := sortedNodes_length rows
  set x := fun i => ((sortedNodes rows).getD i (0, 0)).1 with hxd
  set y := fun i => ((sortedNodes rows).getD i (0, 0)).2 with hyd
  set n := rows.length - 1 with hnd
  have hn : 3 ≤ n := hf.1
  have hx : ∀ i < n, x i < x (i + 1) := hf.2.1
  have hf' : ∃ p : ℕ → Cubic, IsNotAKnot n x y p ∧
      (∀ i < n, ∀ t, x i ≤ t → t ≤ x (i + 1) → f t = (p i).eval (t - x i)) ∧
      (∀ t, t < x 0 ∨ x n < t → f t = fill) := hf.2.2
  obtain ⟨p, hp, hpf, -⟩ := hf'
  have hy : ∀ i ≤ n, y i = A + B * x i + C * x i ^ 2 + D * x i ^ 3 := by
    intro i hi
    refine hq ((sortedNodes rows).getD i (0, 0)) ?_
    rw [List.getD_eq_getElem _ _ (by omega)]
    exact sortedNodes_mem.mp (List.getElem_mem _)
  set q : ℕ → Cubic := fun j => ⟨A + B * x j + C * x j ^ 2 + D * x j ^ 3, B + 2 * C * x j + 3 * D * x j ^ 2, C + 3 * D * x j, D⟩
    with hqd
  have hev : ∀ j u, (q j).eval u = A + B * (x j + u) + C * (x j + u) ^ 2 + D * (x j + u) ^ 3 := by
    intro j u; simp only [hqd, Cubic.eval]; ring
  have hsl : ∀ j u, (q j).slope u = B + 2 * C * (x j + u) + 3 * D * (x j + u) ^ 2 := by
    intro j u; simp only [hqd, Cubic.slope]; ring
  have hcu : ∀ j u, (q j).curvature u = 2 * C + 6 * D * (x j + u) := by
    intro j u; simp only [hqd, Cubic.curvature]; ring
  have hQ : IsNotAKnot n x y q := by
    refine ⟨fun i hi => ?_, fun i hi => ?_, fun i hi => ?_, fun i hi => ?_, rfl, rfl⟩
    · rw [hev, hy i (by omega)]; ring
    · rw [hev, hy (i + 1) (by omega)]; ring
    · rw [hsl, hsl]; ring
    · rw [hcu, hcu]; ring
  have hpq := Spline.unique_spline hn hx hp hQ
  intro r hr r' hr' t h0 h1
  have hidx : ∀ r ∈ rows, ∃ i ≤ n, x i = r.1 := by
    intro r hr
    obtain ⟨i, hi, hri⟩ := List.mem_iff_getElem.mp (sortedNodes_mem.mpr hr)
    have hg : (sortedNodes rows).getD i (0, 0) = r := by rw [List.getD_eq_getElem _ _ hi, hri]
    exact ⟨i, by omega, by rw [hxd]; simp only [hg]⟩
  obtain ⟨i, hi, e1⟩ := hidx r hr
  obtain ⟨k, hk, e2⟩ := hidx r' hr'
  obtain ⟨j, hj, a, b⟩ := exists_interval (x := x) (n := n) (t := t) (by omega)
    ((increasing_le hx (Nat.zero_le i) hi).trans (e1 ▸ h0)) ((e2 ▸ h1 : t ≤ x k).trans (increasing_le hx hk le_rfl))
  rw [hpf j hj t a b, hpq j hj, hev]
  ring

/-- Cases for `C134_lookup_exists_unique`, `C134_reproduces_rows` and `C134_parabola`: `steepRows3`, the same rows in another
order, and four rows on a parabola. -/
example : (∃ f, IsQuadInterp steepRows3 0 f ∧ f 1000 = 1 ∧ f (-1) = 0 ∧ ContinuousOn f (Set.Icc 0 2000) ∧ f 1500 < 0 ∧
      ∀ g, IsQuadInterp [(1000, 1), (0, 1000), (2000, 0.1)] 0 g → f = g) ∧
    ∃ f, IsQuadInterp [(0, 1), (1, 2), (3, 10), (4, 17)] 0 f ∧ f 2 = 5 := by
  constructor
  · obtain ⟨⟨f, hf⟩, hu⟩ := C134_lookup_exists_unique steepRows3 (by simp [steepRows3]) (by simp only [steepRows3]; simp) 0
    obtain ⟨h1, h2, h3⟩ := C134_reproduces_rows _ _ _ hf
    refine ⟨f, hf, h1 (1000, 1) (by simp [steepRows3]), h2 (-1) (Or.inl ?_),
      h3 (0, 1000) (by simp [steepRows3]) (2000, 0.1) (by simp [steepRows3]), (C134_negative_between_rows 0 f hf).2,
      fun g hg => hu _ f g ?_ hf hg⟩
    · intro r hr
      simp only [steepRows3, List.mem_cons, List.not_mem_nil, or_false] at hr
      rcases hr with rfl | rfl | rfl <;> norm_num
    · unfold steepRows3
      exact List.Perm.swap _ _ _
  · obtain ⟨⟨f, hf⟩, -⟩ := C134_lookup_exists_unique [(0, 1), (1, 2), (3, 10), (4, 17)] (by simp) (by norm_num) 0
    refine ⟨f, hf, ?_⟩
    have := C134_parabola _ _ _ hf 1 0 1 (by
      intro r hr
      simp only [List.mem_cons, List.not_mem_nil, or_false] at hr
      rcases hr with rfl | rfl | rfl | rfl <;> norm_num) (0, 1) (by simp) (4, 17) (by simp) 2 (by norm_num) (by norm_num)
    rw [this]; norm_num

/-- Case for `C134_loads`: three rows in km. -/
example (P : Planet) : ∃ atm : Atmosphere, LoadedQuad P true [⟨0, 300, 1e5, 1⟩, ⟨10, 250, 3e4, 0.4⟩, ⟨20, 220, 5e3, 0.08⟩] atm ∧
    atm.densityInt 10000 = 0.4 := by
  obtain ⟨T, p, ρ, a, h, hr⟩ := C134_loads P true [⟨0, 300, 1e5, 1⟩, ⟨10, 250, 3e4, 0.4⟩, ⟨20, 220, 5e3, 0.08⟩] (by simp)
    (by norm_num)
  refine ⟨_, (h { tempInt := T, pressureInt := p, densityInt := ρ, sonicInt := a }).mpr ⟨rfl, rfl, rfl, rfl⟩, ?_⟩
  have := (hr ⟨10, 250, 3e4, 0.4⟩ (by simp)).2.2.1
  change ρ 10000 = 0.4
  rw [show (0.4 : ℝ) = (⟨10, 250, 3e4, 0.4⟩ : AtmRow).dens from rfl, ← this]
  norm_num [atmHeight]

/-- Case for `C84_cubic_columns`. -/
example : ∃ f, IsCubicInterp [(0, 0), (1, 1), (2, 8), (4, 64), (5, 125)] 0 f ∧ f 3 = 27 := by
  obtain ⟨⟨f, hf⟩, -⟩ := C84_lookup_exists_unique [(0, 0), (1, 1), (2, 8), (4, 64), (5, 125)] (by simp) (by norm_num) 0
  refine ⟨f, hf, ?_⟩
  have := C84_cubic_columns _ _ _ hf 0 0 0 1 (by
    intro r hr
    simp only [List.mem_cons, List.not_mem_nil, or_false] at hr
    rcases hr with rfl | rfl | rfl | rfl | rfl <;> norm_num) (0, 0) (by simp) (5, 125) (by simp) 3 (by norm_num) (by norm_num)
  rw [this]; norm_num

end AMAT.Props
