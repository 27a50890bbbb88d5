import Verif.Lemmas.SplineCert
import Verif.Props.CubicAtmosphere
import Mathlib.Order.Monotone.Union

/-
From the integer certificate of a table to facts about the cubic interpolation of the (scaled) table.
-/

noncomputable section

open Classical

namespace AMAT.Spline

open AMAT.Props

/-- A node in real units. -/
def scaled (hx ry : ℝ) (v : Node) : ℝ × ℝ := (hx * v.1, ry * v.2.1)

theorem scaled_getD (hx ry : ℝ) (L : List Node) (i : ℕ) :
    (L.map (scaled hx ry)).getD i (0, 0) = (hx * absc L i, ry * ordi L i) := by
  have h : ((0 : ℝ), (0 : ℝ)) = scaled hx ry (0, 0, 0) := by simp [scaled]
  rw [h, List.getD_map]
  rfl

/-- The pieces in the units of the certificate. -/
def unscale (hx ry : ℝ) (p : Cubic) : Cubic :=
  ⟨p.a / ry, p.b * hx / ry, p.c * hx ^ 2 / ry, p.d * hx ^ 3 / ry⟩

theorem unscale_eval (hx ry : ℝ) (p : Cubic) (u : ℝ) :
    (unscale hx ry p).eval u = p.eval (hx * u) / ry := by
  simp only [unscale, Cubic.eval]; ring

theorem unscale_notAKnot {hx ry : ℝ} (hr : 0 < ry) {n : ℕ} {x y : ℕ → ℝ} {p : ℕ → Cubic}
    (hp : IsNotAKnot n (fun i => hx * x i) (fun i => ry * y i) p) :
    IsNotAKnot n x y (fun i => unscale hx ry (p i)) := by
  have hr' := hr.ne'
  constructor
  · intro i hi
    rw [unscale_eval, mul_zero, hp.left i hi]; field_simp
  · intro i hi
    rw [unscale_eval, mul_sub, hp.right i hi]; field_simp
  · intro i hi
    have := hp.slope i hi
    simp only [Cubic.slope, unscale] at this ⊢
    have h2 := congrArg (fun z => z * hx / ry) this
    ring_nf at h2 ⊢
    linarith
  · intro i hi
    have := hp.curvature i hi
    simp only [Cubic.curvature, unscale] at this ⊢
    have h2 := congrArg (fun z => z * hx ^ 2 / ry) this
    ring_nf at h2 ⊢
    linarith
  · simp only [unscale, hp.start]
  · simp only [unscale, hp.stop]

theorem scaled_sorted {κ e D : ℤ} {L : List Node} (h : Checked κ e D L) {hx ry : ℝ} (hh : 0 < hx) :
    (L.map (scaled hx ry)).Pairwise (fun a b => a.1 < b.1) := by
  rw [List.pairwise_iff_getElem]
  intro i j hi hj hij
  simp only [List.length_map] at hi hj
  simp only [List.getElem_map, scaled]
  have := increasing_lt h.incr hij (by omega)
  rw [absc_get hi, absc_get hj] at this
  exact mul_lt_mul_of_pos_left this hh

theorem sorted_eq {κ e D : ℤ} {L : List Node} (h : Checked κ e D L) {hx ry : ℝ} (hh : 0 < hx)
    {rows : List (ℝ × ℝ)} (hperm : (L.map (scaled hx ry)).Perm rows) :
    sortedNodes rows = L.map (scaled hx ry) := by
  have hs := scaled_sorted h (ry := ry) hh
  have hd : rows.Pairwise (fun p q => p.1 ≠ q.1) :=
    (hperm.pairwise_iff (fun h => Ne.symm h)).mp (hs.imp (fun h => ne_of_lt h))
  refine List.Perm.eq_of_pairwise (le := fun a b => a.1 < b.1) ?_ (sortedNodes_lt rows hd) hs
    ((sortedNodes_perm rows).trans hperm.symm)
  intro a b _ _ h1 h2
  exact absurd h1 (not_lt.mpr h2.le)

/-- The interpolation of a scaled table in terms of a spline through the integer table. -/
theorem interp_pieces {κ e D : ℤ} {L : List Node} (h : Checked κ e D L) {hx ry : ℝ} (hh : 0 < hx)
    (hr : 0 < ry) {rows : List (ℝ × ℝ)} (hperm : (L.map (scaled hx ry)).Perm rows) {fill : ℝ}
    {f : ℝ → ℝ} (hf : IsCubicInterp rows fill f) :
    ∃ q : ℕ → Cubic, IsNotAKnot (L.length - 1) (absc L) (ordi L) q ∧
      ∀ i < L.length - 1, ∀ t, hx * absc L i ≤ t → t ≤ hx * absc L (i + 1) →
        f t = ry * (q i).eval (t / hx - absc L i) := by
  obtain ⟨-, -, p, hp, hpf, -⟩ := hf
  have hlen : rows.length = L.length := by rw [← hperm.length_eq, List.length_map]
  have hsort : rows.mergeSort (fun a b => decide (a.1 ≤ b.1)) = L.map (scaled hx ry) :=
    sorted_eq h hh hperm
  rw [hsort, hlen] at hp hpf
  simp only [scaled_getD] at hp hpf
  refine ⟨_, unscale_notAKnot hr hp, ?_⟩
  intro i hi t h0 h1
  rw [hpf i hi t h0 h1, unscale_eval]
  have : hx * (t / hx - absc L i) = t - hx * absc L i := by field_simp
  rw [this]
  field_simp

/-- A table with a certificate is interpolated by positive values. -/
theorem interp_pos {κ e D : ℤ} {L : List Node} (h : Checked κ e D L) {hx ry : ℝ} (hh : 0 < hx)
    (hr : 0 < ry) {rows : List (ℝ × ℝ)} (hperm : (L.map (scaled hx ry)).Perm rows) {fill : ℝ}
    {f : ℝ → ℝ} (hf : IsCubicInterp rows fill f) {t : ℝ} (h0 : hx * absc L 0 ≤ t)
    (h1 : t ≤ hx * absc L (L.length - 1)) : 0 < f t := by
  obtain ⟨q, hq, hqf⟩ := interp_pieces h hh hr hperm hf
  have hl := h.len
  obtain ⟨i, hi, a, b⟩ := exists_interval (x := fun i => hx * absc L i) (by omega) h0 h1
  rw [hqf i hi t a b]
  apply mul_pos hr
  apply spline_pos h hq i hi
  · rw [sub_nonneg, le_div_iff₀ hh]; linarith
  · rw [width, sub_le_sub_iff_right, div_le_iff₀ hh]; linarith

theorem strictAnti_of_pieces {x : ℕ → ℝ} {n : ℕ} (hx : ∀ i < n, x i < x (i + 1)) {f : ℝ → ℝ}
    (hf : ∀ i < n, StrictAntiOn f (Set.Icc (x i) (x (i + 1)))) :
    StrictAntiOn f (Set.Icc (x 0) (x n)) := by
  induction n with
  | zero =>
    intro a ha b hb hab
    simp at ha hb
    linarith
  | succ k ih =>
    have h1 := ih (fun i hi => hx i (by omega)) (fun i hi => hf i (by omega))
    have h0k : x 0 ≤ x k := increasing_le (n := k + 1) hx (Nat.zero_le k) (by omega)
    have hkk := hx k (by omega)
    rw [← Set.Icc_union_Icc_eq_Icc h0k hkk.le]
    exact h1.union (hf k (by omega)) (isGreatest_Icc h0k) (isLeast_Icc hkk.le)

/-- A table with a certificate of decrease is interpolated by a decreasing function. -/
theorem interp_anti {κ e D : ℤ} {L : List Node} (h : Checked κ e D L)
    (hm : pairsCheck (monoCheck κ (D * e)) L = true) {hx ry : ℝ} (hh : 0 < hx)
    (hr : 0 < ry) {rows : List (ℝ × ℝ)} (hperm : (L.map (scaled hx ry)).Perm rows) {fill : ℝ}
    {f : ℝ → ℝ} (hf : IsCubicInterp rows fill f) :
    StrictAntiOn f (Set.Icc (hx * absc L 0) (hx * absc L (L.length - 1))) := by
  obtain ⟨q, hq, hqf⟩ := interp_pieces h hh hr hperm hf
  apply strictAnti_of_pieces (x := fun i => hx * absc L i)
  · intro i hi; exact mul_lt_mul_of_pos_left (h.incr i hi) hh
  · intro i hi a ha b hb hab
    rw [hqf i hi a ha.1 ha.2, hqf i hi b hb.1 hb.2]
    apply mul_lt_mul_of_pos_left _ hr
    apply spline_decreasing h hm hq i hi
    · rw [sub_nonneg, le_div_iff₀ hh]; linarith [ha.1]
    · rw [sub_lt_sub_iff_right]; exact div_lt_div_of_pos_right hab hh
    · rw [width, sub_le_sub_iff_right, div_le_iff₀ hh]; linarith [hb.2]

/-- The piece between two nodes is higher at the fraction `b/N` of the interval than at `a/N`. -/
def riseCheck (κ d N a b : ℤ) (u v : Node) : Bool :=
  let q := (v.1 - u.1) ^ 2
  let da := a * (N - a) * (2 * N - a) - b * (N - b) * (2 * N - b)
  let db := a * (N - a) * (N + a) - b * (N - b) * (N + b)
  decide (0 < N) && decide (0 ≤ a) && decide (a ≤ N) && decide (0 ≤ b) && decide (b ≤ N) &&
  decide (q * d * (|da| + |db|) < 6 * κ * N ^ 2 * (v.2.1 - u.2.1) * (b - a) + q * (da * u.2.2 + db * v.2.2))

theorem interp_rise {κ e D : ℤ} {L : List Node} (h : Checked κ e D L) {hx ry : ℝ} (hh : 0 < hx)
    (hr : 0 < ry) {rows : List (ℝ × ℝ)} (hperm : (L.map (scaled hx ry)).Perm rows) {fill : ℝ}
    {f : ℝ → ℝ} (hf : IsCubicInterp rows fill f) {i : ℕ} (hi : i < L.length - 1) {N a b : ℤ}
    (hc : riseCheck κ (D * e) N a b (L.getD i (0, 0, 0)) (L.getD (i + 1) (0, 0, 0)) = true) :
    f (hx * (absc L i + a / N * (absc L (i + 1) - absc L i))) <
      f (hx * (absc L i + b / N * (absc L (i + 1) - absc L i))) := by
  obtain ⟨q, hq, hqf⟩ := interp_pieces h hh hr hperm hf
  have hlt := h.incr i hi
  have w : 0 < width (absc L) i := by unfold width; linarith
  simp only [riseCheck, Bool.and_eq_true, decide_eq_true_eq] at hc
  obtain ⟨⟨⟨⟨⟨hN, ha⟩, haN⟩, hb⟩, hbN⟩, hc⟩ := hc
  have hNR : (0:ℝ) < N := by exact_mod_cast hN
  have key : ∀ c : ℤ, 0 ≤ c → c ≤ N →
      f (hx * (absc L i + c / N * (absc L (i + 1) - absc L i))) =
        ry * (pieceOf (absc L) (ordi L) (nodeCurv (L.length - 1) (absc L) q) i).eval
          (c / N * width (absc L) i) := by
    intro c hc0 hcN
    have h0 : (0:ℝ) ≤ c / N := div_nonneg (by exact_mod_cast hc0) hNR.le
    have h1 : (c:ℝ) / N ≤ 1 := (div_le_one hNR).mpr (by exact_mod_cast hcN)
    rw [hqf i hi _ (mul_le_mul_of_nonneg_left (by nlinarith) hh.le)
      (mul_le_mul_of_nonneg_left (by nlinarith) hh.le), mul_div_cancel_left₀ _ hh.ne',
      piece_eq h.incr hq i hi]
    congr 2
    unfold width; ring
  rw [key a ha haN, key b hb hbN]
  apply mul_lt_mul_of_pos_left _ hr
  rw [piece_bernstein _ _ _ _ w.ne', piece_bernstein _ _ _ _ w.ne']
  have c0 := curv_close h hq i hi.le
  have c1 := curv_close h hq (i + 1) (by omega)
  set M0 := nodeCurv (L.length - 1) (absc L) q i
  set M1 := nodeCurv (L.length - 1) (absc L) q (i + 1)
  have hk := h.kpos
  have b0 : |κ * M0 - curv L i| ≤ D * e := by
    have e1 : κ * M0 - curv L i = κ * (M0 - curv L i / κ) := by field_simp
    rw [e1, abs_mul, abs_of_pos hk]
    have := mul_le_mul_of_nonneg_left c0 hk.le
    have e2 : (κ:ℝ) * (D * (e / κ)) = D * e := by field_simp
    rwa [e2] at this
  have b1 : |κ * M1 - curv L (i + 1)| ≤ D * e := by
    have e1 : κ * M1 - curv L (i + 1) = κ * (M1 - curv L (i + 1) / κ) := by field_simp
    rw [e1, abs_mul, abs_of_pos hk]
    have := mul_le_mul_of_nonneg_left c1 hk.le
    have e2 : (κ:ℝ) * (D * (e / κ)) = D * e := by field_simp
    rwa [e2] at this
  set W := width (absc L) i with hW
  obtain ⟨da, hda⟩ : ∃ da : ℝ, da = a * (N - a) * (2 * N - a) - b * (N - b) * (2 * N - b) := ⟨_, rfl⟩
  obtain ⟨db, hdb⟩ : ∃ db : ℝ, db = a * (N - a) * (N + a) - b * (N - b) * (N + b) := ⟨_, rfl⟩
  have hcR : W ^ 2 * (D * e) * (|da| + |db|) <
      6 * κ * N ^ 2 * (ordi L (i + 1) - ordi L i) * (b - a) + W ^ 2 * (da * curv L i + db * curv L (i + 1)) := by
    simp only [hW, width, absc, ordi, curv, hda, hdb]
    exact_mod_cast hc
  have p0 : da * curv L i - |da| * (D * e) ≤ da * (κ * M0) := by
    have h1 : |da * (κ * M0 - curv L i)| ≤ |da| * (D * e) := by
      rw [abs_mul]; exact mul_le_mul_of_nonneg_left b0 (abs_nonneg _)
    have := (abs_le.mp h1).1
    linarith
  have p1 : db * curv L (i + 1) - |db| * (D * e) ≤ db * (κ * M1) := by
    have h1 : |db * (κ * M1 - curv L (i + 1))| ≤ |db| * (D * e) := by
      rw [abs_mul]; exact mul_le_mul_of_nonneg_left b1 (abs_nonneg _)
    have := (abs_le.mp h1).1
    linarith
  have hw2 : 0 ≤ W ^ 2 := by positivity
  have k1 : 0 < κ * (6 * N ^ 2 * (ordi L (i + 1) - ordi L i) * (b - a) + W ^ 2 * (da * M0 + db * M1)) := by
    have := mul_le_mul_of_nonneg_left (add_le_add p0 p1) hw2
    linarith
  have k2 := (mul_pos_iff_of_pos_left hk).mp k1
  have hN3 : (0:ℝ) < 6 * N ^ 3 := by positivity
  rw [← sub_pos, ← mul_pos_iff_of_pos_left hN3]
  refine lt_of_lt_of_eq k2 ?_
  rw [hda, hdb]
  field_simp
  ring

end AMAT.Spline
