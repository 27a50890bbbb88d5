import Verif.Lemmas.SplineTable

/-
The integer certificates of `SplineCert` used for tables with real ordinates of which only the integer parts are known,
and bounds for the values of their interpolation.
-/

noncomputable section

open Classical

namespace AMAT.Spline

open AMAT.Props

/-- The curvatures of a spline whose ordinates are those of the certificate up to one unit. -/
theorem curv_close_real {κ e D : ℤ} {L : List Node} (h : Checked κ e D L) {y : ℕ → ℝ} {w e₂ : ℝ} (hw0 : 0 < w)
    (hw : ∀ i < L.length - 1, w ≤ width (absc L) i)
    (hy : ∀ i ≤ L.length - 1, ordi L i ≤ y i ∧ y i ≤ ordi L i + 1) (he : 6 * κ ≤ e₂ * w ^ 2) {p : ℕ → Cubic}
    (hp : IsNotAKnot (L.length - 1) (absc L) y p) :
    ∀ i ≤ L.length - 1, |nodeCurv (L.length - 1) (absc L) p i - curv L i / κ| ≤ D * ((e + e₂) / κ) := by
  have hk := h.kpos
  have he2 : 0 ≤ e₂ := by
    by_contra hc
    have : e₂ * w ^ 2 ≤ 0 := mul_nonpos_of_nonpos_of_nonneg (not_le.mp hc).le (by positivity)
    linarith
  have hεκ : 0 ≤ e₂ / κ := div_nonneg he2 hk.le
  have hsplit : (e + e₂) / κ = e / κ + e₂ / κ := by field_simp
  refine bound_all (e := fun i => nodeCurv (L.length - 1) (absc L) p i - curv L i / κ) h.len h.incr
    (div_nonneg (add_nonneg h.epos he2) hk.le) ?_ ?_ ?_ h.Dpos h.D0 h.D1
  · intro i hi
    have a := row_eq h.incr hp i hi
    have b := h.rows i hi
    have w0 := hw0.trans_le (hw i (by omega))
    have w1 := hw0.trans_le (hw (i + 1) hi)
    -- the right-hand sides differ little
    have hd : |rhs (absc L) (ordi L) i - rhs (absc L) y i| ≤
        e₂ / κ * (width (absc L) i + width (absc L) (i + 1)) := by
      have d0 := hy i (by omega); have d1 := hy (i + 1) (by omega); have d2 := hy (i + 2) (by omega)
      have e1 : rhs (absc L) (ordi L) i - rhs (absc L) y i =
          6 * ((ordi L (i + 2) - y (i + 2) - (ordi L (i + 1) - y (i + 1))) / width (absc L) (i + 1)
            - (ordi L (i + 1) - y (i + 1) - (ordi L i - y i)) / width (absc L) i) := by
        simp only [rhs]; field_simp; ring
      have b1 : |(ordi L (i + 2) - y (i + 2) - (ordi L (i + 1) - y (i + 1))) / width (absc L) (i + 1)|
          ≤ 1 / width (absc L) (i + 1) := by
        rw [abs_div, abs_of_pos w1]
        exact div_le_div_of_nonneg_right (abs_le.mpr ⟨by linarith, by linarith⟩) w1.le
      have b2 : |(ordi L (i + 1) - y (i + 1) - (ordi L i - y i)) / width (absc L) i| ≤ 1 / width (absc L) i := by
        rw [abs_div, abs_of_pos w0]
        exact div_le_div_of_nonneg_right (abs_le.mpr ⟨by linarith, by linarith⟩) w0.le
      have b3 : |rhs (absc L) (ordi L) i - rhs (absc L) y i| ≤ 6 * (1 / width (absc L) (i + 1) + 1 / width (absc L) i) := by
        rw [e1, abs_mul, abs_of_pos (by norm_num : (0:ℝ) < 6)]
        exact mul_le_mul_of_nonneg_left ((abs_sub _ _).trans (add_le_add b1 b2)) (by norm_num)
      refine b3.trans ?_
      have e2 : 6 * (1 / width (absc L) (i + 1) + 1 / width (absc L) i) =
          6 / (width (absc L) i * width (absc L) (i + 1)) * (width (absc L) i + width (absc L) (i + 1)) := by
        field_simp
      rw [e2]
      refine mul_le_mul_of_nonneg_right ?_ (by positivity)
      rw [div_le_div_iff₀ (by positivity) hk]
      have : w ^ 2 ≤ width (absc L) i * width (absc L) (i + 1) := by
        rw [pow_two]
        exact mul_le_mul (hw i (by omega)) (hw (i + 1) hi) hw0.le w0.le
      exact he.trans (mul_le_mul_of_nonneg_left this he2)
    have e3 : row (absc L) (fun i => nodeCurv (L.length - 1) (absc L) p i - curv L i / κ) i =
        -((row (absc L) (fun j => curv L j / κ) i - rhs (absc L) (ordi L) i)
          + (rhs (absc L) (ordi L) i - rhs (absc L) y i)) := by
      rw [← a]; simp only [row]; ring
    rw [e3, abs_neg, hsplit, add_mul]
    exact (abs_add_le _ _).trans (add_le_add b hd)
  · have a := endRow_start h.len h.incr hp
    have b := h.start
    have w1 := hw0.trans_le (hw 1 (by have := h.len; omega))
    refine le_trans (le_of_eq ?_) (b.trans ?_)
    · rw [← abs_neg]
      congr 1
      simp only [endRow] at a ⊢
      linarith
    · rw [hsplit]
      exact mul_le_mul_of_nonneg_right (by linarith) w1.le
  · have a := endRow_stop h.len h.incr hp
    have b := h.stop
    have w1 := hw0.trans_le (hw (L.length - 1 - 2) (by have := h.len; omega))
    refine le_trans (le_of_eq ?_) (b.trans ?_)
    · rw [← abs_neg]
      congr 1
      simp only [endRow] at a ⊢
      linarith
    · rw [hsplit]
      exact mul_le_mul_of_nonneg_right (by linarith) w1.le

/-- The intervals are at least `w` wide, and the control points of the piece lie between `lo` and `hi` whatever the
curvatures within `d` and the ordinates within one unit above. -/
def boundCheck (κ d w lo hi : ℤ) (a b : Node) : Bool :=
  let q := (b.1 - a.1) ^ 2
  decide (w ≤ b.1 - a.1) && decide (lo ≤ a.2.1) && decide (lo ≤ b.2.1) && decide (a.2.1 + 1 ≤ hi) &&
  decide (b.2.1 + 1 ≤ hi) &&
  decide (18 * κ * lo + 3 * q * d ≤ 6 * κ * (2 * a.2.1 + b.2.1) - q * (2 * a.2.2 + b.2.2)) &&
  decide (18 * κ * lo + 3 * q * d ≤ 6 * κ * (a.2.1 + 2 * b.2.1) - q * (a.2.2 + 2 * b.2.2)) &&
  decide (6 * κ * (2 * a.2.1 + b.2.1 + 3) - q * (2 * a.2.2 + b.2.2) + 3 * q * d ≤ 18 * κ * hi) &&
  decide (6 * κ * (a.2.1 + 2 * b.2.1 + 3) - q * (a.2.2 + 2 * b.2.2) + 3 * q * d ≤ 18 * κ * hi)

/-- Soundness: the spline stays between the bounds. -/
theorem spline_between {κ e D w e₂ lo hi : ℤ} {L : List Node} (h : Checked κ e D L) (hw0 : 0 < w)
    (he : 6 * κ ≤ e₂ * w ^ 2) (hb : pairsCheck (boundCheck κ (D * (e + e₂)) w lo hi) L = true) {y : ℕ → ℝ}
    (hy : ∀ i ≤ L.length - 1, ordi L i ≤ y i ∧ y i ≤ ordi L i + 1) {p : ℕ → Cubic}
    (hp : IsNotAKnot (L.length - 1) (absc L) y p) (i : ℕ) (hi' : i < L.length - 1) (u : ℝ)
    (hu : 0 ≤ u) (hu1 : u ≤ width (absc L) i) : (lo : ℝ) ≤ (p i).eval u ∧ (p i).eval u ≤ hi := by
  have hpair : ∀ i, (hi : i + 1 < L.length) → _ := fun i hi => pairsCheck_get hb i hi
  have hwz : ∀ i, (hi : i + 1 < L.length) → width (absc L) i = ((L[i + 1].1 - L[i].1 : ℤ) : ℝ) := by
    intro i hi
    rw [width, absc_get hi, absc_get (by omega)]; push_cast; ring
  have hwR : ∀ i < L.length - 1, (w : ℝ) ≤ width (absc L) i := by
    intro i hi
    have := hpair i (by omega)
    simp only [boundCheck, Bool.and_eq_true, decide_eq_true_eq] at this
    rw [hwz i (by omega)]
    exact_mod_cast this.1.1.1.1.1.1.1.1
  have hcl := curv_close_real h (w := w) (e₂ := e₂) (by exact_mod_cast hw0) hwR hy (by exact_mod_cast he) hp
  have W : 0 < width (absc L) i := by unfold width; linarith [h.incr i hi']
  have hs : u = (u / width (absc L) i) * width (absc L) i := by field_simp
  set s := u / width (absc L) i with hsd
  have hs0 : 0 ≤ s := by positivity
  have hs1 : s ≤ 1 := by rw [hsd, div_le_one W]; exact hu1
  rw [piece_eq h.incr hp i hi', hs, piece_bernstein _ _ _ _ W.ne']
  have c0 := abs_le.mp (hcl i hi'.le)
  have c1 := abs_le.mp (hcl (i + 1) (by omega))
  set M0 := nodeCurv (L.length - 1) (absc L) p i
  set M1 := nodeCurv (L.length - 1) (absc L) p (i + 1)
  have hk := h.kpos
  have q0 : 0 < width (absc L) i ^ 2 := by positivity
  have y0 := hy i hi'.le
  have y1 := hy (i + 1) (by omega)
  have hc := hpair i (by omega)
  simp only [boundCheck, Bool.and_eq_true, decide_eq_true_eq] at hc
  obtain ⟨⟨⟨⟨⟨⟨⟨⟨-, l0⟩, l1⟩, u0⟩, u1⟩, k1⟩, k2⟩, k3⟩, k4⟩ := hc
  have l0R : (lo : ℝ) ≤ ordi L i := by rw [ordi_get (by omega)]; exact_mod_cast l0
  have l1R : (lo : ℝ) ≤ ordi L (i + 1) := by rw [ordi_get (by omega)]; exact_mod_cast l1
  have u0R : ordi L i + 1 ≤ hi := by rw [ordi_get (by omega)]; exact_mod_cast u0
  have u1R : ordi L (i + 1) + 1 ≤ hi := by rw [ordi_get (by omega)]; exact_mod_cast u1
  have k1R : 18 * κ * lo + 3 * width (absc L) i ^ 2 * (D * (e + e₂)) ≤
      6 * κ * (2 * ordi L i + ordi L (i + 1)) - width (absc L) i ^ 2 * (2 * curv L i + curv L (i + 1)) := by
    rw [hwz i (by omega), ordi_get (by omega), ordi_get (by omega), curv_get (by omega), curv_get (by omega)]
    exact_mod_cast k1
  have k2R : 18 * κ * lo + 3 * width (absc L) i ^ 2 * (D * (e + e₂)) ≤
      6 * κ * (ordi L i + 2 * ordi L (i + 1)) - width (absc L) i ^ 2 * (curv L i + 2 * curv L (i + 1)) := by
    rw [hwz i (by omega), ordi_get (by omega), ordi_get (by omega), curv_get (by omega), curv_get (by omega)]
    exact_mod_cast k2
  have k3R : 6 * κ * (2 * ordi L i + ordi L (i + 1) + 3) - width (absc L) i ^ 2 * (2 * curv L i + curv L (i + 1))
      + 3 * width (absc L) i ^ 2 * (D * (e + e₂)) ≤ 18 * κ * hi := by
    rw [hwz i (by omega), ordi_get (by omega), ordi_get (by omega), curv_get (by omega), curv_get (by omega)]
    exact_mod_cast k3
  have k4R : 6 * κ * (ordi L i + 2 * ordi L (i + 1) + 3) - width (absc L) i ^ 2 * (curv L i + 2 * curv L (i + 1))
      + 3 * width (absc L) i ^ 2 * (D * (e + e₂)) ≤ 18 * κ * hi := by
    rw [hwz i (by omega), ordi_get (by omega), ordi_get (by omega), curv_get (by omega), curv_get (by omega)]
    exact_mod_cast k4
  -- curvatures in the units of the certificate
  have cl : ∀ M c : ℝ, -(D * ((e + e₂) / κ)) ≤ M - c / κ → M - c / κ ≤ D * ((e + e₂) / κ) →
      c - D * (e + e₂) ≤ κ * M ∧ κ * M ≤ c + D * (e + e₂) := by
    intro M c h1 h2
    have e1 : κ * (M - c / κ) = κ * M - c := by field_simp
    have e2 : (κ : ℝ) * (D * ((e + e₂) / κ)) = D * (e + e₂) := by field_simp
    have g1 := mul_le_mul_of_nonneg_left h1 hk.le
    have g2 := mul_le_mul_of_nonneg_left h2 hk.le
    rw [mul_neg, e1, e2] at g1
    rw [e1, e2] at g2
    exact ⟨by linarith, by linarith⟩
  obtain ⟨m0a, m0b⟩ := cl M0 _ c0.1 c0.2
  obtain ⟨m1a, m1b⟩ := cl M1 _ c1.1 c1.2
  have nn := fun {a b : ℝ} (hab : a ≤ b) => mul_le_mul_of_nonneg_left hab q0.le
  have yk := fun {a b : ℝ} (hab : a ≤ b) => mul_le_mul_of_nonneg_left hab hk.le
  have hb1 : (lo : ℝ) ≤ (2 * y i + y (i + 1)) / 3 - width (absc L) i ^ 2 * (2 * M0 + M1) / 18 ∧
      (2 * y i + y (i + 1)) / 3 - width (absc L) i ^ 2 * (2 * M0 + M1) / 18 ≤ hi := by
    have A := yk y0.1; have A' := yk y0.2; have B := yk y1.1; have B' := yk y1.2
    have C := nn m0a; have C' := nn m0b; have E := nn m1a; have E' := nn m1b
    have ex : κ * ((2 * y i + y (i + 1)) / 3 - width (absc L) i ^ 2 * (2 * M0 + M1) / 18) =
        (6 * (2 * (κ * y i) + κ * y (i + 1)) - (2 * (width (absc L) i ^ 2 * (κ * M0)) + width (absc L) i ^ 2 * (κ * M1))) / 18 := by
      ring
    constructor <;> rw [← mul_le_mul_iff_of_pos_left hk, ex] <;> linarith
  have hb2 : (lo : ℝ) ≤ (y i + 2 * y (i + 1)) / 3 - width (absc L) i ^ 2 * (M0 + 2 * M1) / 18 ∧
      (y i + 2 * y (i + 1)) / 3 - width (absc L) i ^ 2 * (M0 + 2 * M1) / 18 ≤ hi := by
    have A := yk y0.1; have A' := yk y0.2; have B := yk y1.1; have B' := yk y1.2
    have C := nn m0a; have C' := nn m0b; have E := nn m1a; have E' := nn m1b
    have ex : κ * ((y i + 2 * y (i + 1)) / 3 - width (absc L) i ^ 2 * (M0 + 2 * M1) / 18) =
        (6 * (κ * y i + 2 * (κ * y (i + 1))) - (width (absc L) i ^ 2 * (κ * M0) + 2 * (width (absc L) i ^ 2 * (κ * M1)))) / 18 := by
      ring
    constructor <;> rw [← mul_le_mul_iff_of_pos_left hk, ex] <;> linarith
  generalize (2 * y i + y (i + 1)) / 3 - width (absc L) i ^ 2 * (2 * M0 + M1) / 18 = P1 at hb1 ⊢
  generalize (y i + 2 * y (i + 1)) / 3 - width (absc L) i ^ 2 * (M0 + 2 * M1) / 18 = P2 at hb2 ⊢
  have t0 : 0 ≤ 1 - s := by linarith
  have n0 : 0 ≤ (1 - s) ^ 3 := by positivity
  have n1 : 0 ≤ 3 * s * (1 - s) ^ 2 := by positivity
  have n2 : 0 ≤ 3 * s ^ 2 * (1 - s) := by positivity
  have n3 : 0 ≤ s ^ 3 := by positivity
  have tot : (1 - s) ^ 3 + 3 * s * (1 - s) ^ 2 + 3 * s ^ 2 * (1 - s) + s ^ 3 = 1 := by ring
  constructor
  · have a0 := mul_le_mul_of_nonneg_right (l0R.trans y0.1) n0
    have a1 := mul_le_mul_of_nonneg_right hb1.1 n1
    have a2 := mul_le_mul_of_nonneg_right hb2.1 n2
    have a3 := mul_le_mul_of_nonneg_right (l1R.trans y1.1) n3
    have : (lo : ℝ) = lo * (1 - s) ^ 3 + lo * (3 * s * (1 - s) ^ 2) + lo * (3 * s ^ 2 * (1 - s)) + lo * s ^ 3 := by
      rw [← mul_add, ← mul_add, ← mul_add, tot, mul_one]
    linarith
  · have a0 := mul_le_mul_of_nonneg_right (y0.2.trans u0R) n0
    have a1 := mul_le_mul_of_nonneg_right hb1.2 n1
    have a2 := mul_le_mul_of_nonneg_right hb2.2 n2
    have a3 := mul_le_mul_of_nonneg_right (y1.2.trans u1R) n3
    have : (hi : ℝ) = hi * (1 - s) ^ 3 + hi * (3 * s * (1 - s) ^ 2) + hi * (3 * s ^ 2 * (1 - s)) + hi * s ^ 3 := by
      rw [← mul_add, ← mul_add, ← mul_add, tot, mul_one]
    linarith

/-- The interpolation of a table with real ordinates in terms of a spline in the units of the certificate. -/
theorem interp_between {κ e D w e₂ lo hi : ℤ} {L : List Node} (h : Checked κ e D L) (hw0 : 0 < w)
    (he : 6 * κ ≤ e₂ * w ^ 2) (hb : pairsCheck (boundCheck κ (D * (e + e₂)) w lo hi) L = true)
    {hx ry : ℝ} (hh : 0 < hx) (hr : 0 < ry) {N rows : List (ℝ × ℝ)} (hlen : N.length = L.length)
    (hN1 : ∀ i, (N.getD i (0, 0)).1 = hx * absc L i)
    (hN2 : ∀ i ≤ L.length - 1, ry * ordi L i ≤ (N.getD i (0, 0)).2 ∧ (N.getD i (0, 0)).2 ≤ ry * (ordi L i + 1))
    (hperm : N.Perm rows) {fill : ℝ} {f : ℝ → ℝ} (hf : IsCubicInterp rows fill f) {t : ℝ}
    (h0 : hx * absc L 0 ≤ t) (h1 : t ≤ hx * absc L (L.length - 1)) : ry * lo ≤ f t ∧ f t ≤ ry * hi := by
  obtain ⟨-, -, p, hp, hpf, -⟩ := hf
  have hrl : rows.length = L.length := by rw [← hperm.length_eq, hlen]
  have hs : N.Pairwise (fun a b => a.1 < b.1) := by
    rw [List.pairwise_iff_getElem]
    intro i j hi hj hij
    have := increasing_lt h.incr hij (by omega)
    have e1 := hN1 i; have e2 := hN1 j
    rw [List.getD_eq_getElem _ _ hi] at e1
    rw [List.getD_eq_getElem _ _ hj] at e2
    rw [e1, e2]
    exact mul_lt_mul_of_pos_left this hh
  have hsort : rows.mergeSort (fun a b => decide (a.1 ≤ b.1)) = N := by
    have hd : rows.Pairwise (fun p q => p.1 ≠ q.1) :=
      (hperm.pairwise_iff (fun h => Ne.symm h)).mp (hs.imp (fun h => ne_of_lt h))
    refine List.Perm.eq_of_pairwise (le := fun a b => a.1 < b.1) ?_ (sortedNodes_lt rows hd) hs
      ((sortedNodes_perm rows).trans hperm.symm)
    intro a b _ _ h1 h2
    exact absurd h1 (not_lt.mpr h2.le)
  rw [hsort, hrl] at hp hpf
  have ey : ∀ i, (N.getD i (0, 0)).2 = ry * ((N.getD i (0, 0)).2 / ry) := fun i => by field_simp
  simp only [hN1] at hp hpf
  have hp' : IsNotAKnot (L.length - 1) (fun i => hx * absc L i) (fun i => ry * ((N.getD i (0, 0)).2 / ry)) p := by
    simpa only [← ey] using hp
  have hq := unscale_notAKnot hr hp'
  have hl := h.len
  obtain ⟨i, hi', a, b⟩ := exists_interval (x := fun i => hx * absc L i) (by omega) h0 h1
  have hy : ∀ i ≤ L.length - 1, ordi L i ≤ (N.getD i (0, 0)).2 / ry ∧ (N.getD i (0, 0)).2 / ry ≤ ordi L i + 1 := by
    intro i hi
    obtain ⟨g1, g2⟩ := hN2 i hi
    rw [le_div_iff₀ hr, div_le_iff₀ hr]
    exact ⟨by linarith, by linarith⟩
  have hbd := spline_between h hw0 he hb hy hq i hi' (t / hx - absc L i)
    (by rw [sub_nonneg, le_div_iff₀ hh]; linarith) (by rw [width, sub_le_sub_iff_right, div_le_iff₀ hh]; linarith)
  have ef : f t = ry * (unscale hx ry (p i)).eval (t / hx - absc L i) := by
    rw [hpf i hi' t a b, unscale_eval]
    have : hx * (t / hx - absc L i) = t - hx * absc L i := by field_simp
    rw [this]
    field_simp
  rw [ef]
  exact ⟨mul_le_mul_of_nonneg_left hbd.1 hr.le, mul_le_mul_of_nonneg_left hbd.2 hr.le⟩

end AMAT.Spline
