import Verif.Lemmas.Spline
import Mathlib.Order.Interval.Set.Basic
import Mathlib.Tactic.NormNum

/-
A checker, on integers, for properties of the not-a-knot spline through an integer table, and its
soundness.  The checker is given approximate curvatures (scaled by `κ`); it verifies that they nearly satisfy
the linear system, which bounds the distance to the true curvatures.
-/

noncomputable section

namespace AMAT.Spline

/-- A node with its approximate curvature: `(X, Y, m)`. -/
abbrev Node := ℤ × ℤ × ℤ

/-- The scaled residual of the slope condition is at most `e`. -/
def rowCheck (κ e : ℤ) (a b c : Node) : Bool :=
  let h0 := b.1 - a.1
  let h1 := c.1 - b.1
  decide (|h0 * h1 * (h0 * a.2.2 + 2 * (h0 + h1) * b.2.2 + h1 * c.2.2)
    - 6 * κ * ((c.2.1 - b.2.1) * h0 - (b.2.1 - a.2.1) * h1)| ≤ e * (h0 + h1) * (h0 * h1))

/-- Abscissae increase and the control points of the piece are positive whatever the curvatures
within `d`. -/
def posCheck (κ d : ℤ) (a b : Node) : Bool :=
  let q := (b.1 - a.1) ^ 2
  decide (a.1 < b.1) && decide (0 < a.2.1) && decide (0 < b.2.1) &&
  decide (3 * q * d < 6 * κ * (2 * a.2.1 + b.2.1) - q * (2 * a.2.2 + b.2.2)) &&
  decide (3 * q * d < 6 * κ * (a.2.1 + 2 * b.2.1) - q * (a.2.2 + 2 * b.2.2))

/-- The control points of the piece decrease. -/
def monoCheck (κ d : ℤ) (a b : Node) : Bool :=
  let q := (b.1 - a.1) ^ 2
  let g := 6 * κ * (a.2.1 - b.2.1)
  decide (3 * q * d < g + q * (2 * a.2.2 + b.2.2)) &&
  decide (2 * q * d < g - q * (a.2.2 - b.2.2)) &&
  decide (3 * q * d < g - q * (a.2.2 + 2 * b.2.2))

/-- All slope conditions along a list. -/
def rowsCheck (κ e : ℤ) : List Node → Bool
  | a :: b :: c :: rest => rowCheck κ e a b c && rowsCheck κ e (b :: c :: rest)
  | _ => true

/-- A check of all neighbours along a list. -/
def pairsCheck (f : Node → Node → Bool) : List Node → Bool
  | a :: b :: rest => f a b && pairsCheck f (b :: rest)
  | _ => true

/-- The end condition at the first three nodes. -/
def startCheck (e D : ℤ) (L : List Node) : Bool :=
  match L with
  | a :: b :: c :: _ =>
    let h0 := b.1 - a.1
    let h1 := c.1 - b.1
    decide (|h1 * a.2.2 - (h0 + h1) * b.2.2 + h0 * c.2.2| ≤ e * h1) &&
      decide (3 * h1 + 4 * h0 ≤ D * h1)
  | _ => false

/-- The end condition at the last three nodes, on the reversed list. -/
def stopCheck (e D : ℤ) (L : List Node) : Bool :=
  match L with
  | c :: b :: a :: _ =>
    let h0 := b.1 - a.1
    let h1 := c.1 - b.1
    decide (|h1 * a.2.2 - (h0 + h1) * b.2.2 + h0 * c.2.2| ≤ e * h0) &&
      decide (3 * h0 + 4 * h1 ≤ D * h0)
  | _ => false

/-- The whole certificate check. -/
def certCheck (κ e D : ℤ) (L : List Node) : Bool :=
  decide (4 ≤ L.length) && decide (0 < κ) && decide (0 ≤ e) && decide (2 ≤ D) &&
  rowsCheck κ e L && pairsCheck (posCheck κ (D * e)) L && startCheck e D L && stopCheck e D L.reverse

theorem rowsCheck_get {κ e : ℤ} {L : List Node} (h : rowsCheck κ e L = true) :
    ∀ i, (hi : i + 2 < L.length) → rowCheck κ e L[i] L[i + 1] L[i + 2] = true := by
  induction L with
  | nil => intro i hi; simp at hi
  | cons a t ih =>
    match t, h, ih with
    | [], _, _ => intro i hi; simp at hi
    | [b], _, _ => intro i hi; simp at hi
    | b :: c :: r, h, ih =>
      simp only [rowsCheck, Bool.and_eq_true] at h
      intro i hi
      cases i with
      | zero => simpa using h.1
      | succ j => exact ih h.2 j (by simpa using hi)

theorem pairsCheck_get {f : Node → Node → Bool} {L : List Node} (h : pairsCheck f L = true) :
    ∀ i, (hi : i + 1 < L.length) → f L[i] L[i + 1] = true := by
  induction L with
  | nil => intro i hi; simp at hi
  | cons a t ih =>
    match t, h, ih with
    | [], _, _ => intro i hi; simp at hi
    | b :: r, h, ih =>
      simp only [pairsCheck, Bool.and_eq_true] at h
      intro i hi
      cases i with
      | zero => simpa using h.1
      | succ j => exact ih h.2 j (by simpa using hi)

theorem stopCheck_get {e D : ℤ} {R : List Node} (h : stopCheck e D R = true) (hl : 2 < R.length) :
    |(R[0].1 - R[1].1) * R[2].2.2 - (R[1].1 - R[2].1 + (R[0].1 - R[1].1)) * R[1].2.2
      + (R[1].1 - R[2].1) * R[0].2.2| ≤ e * (R[1].1 - R[2].1) ∧
    3 * (R[1].1 - R[2].1) + 4 * (R[0].1 - R[1].1) ≤ D * (R[1].1 - R[2].1) := by
  match R, h, hl with
  | c :: b :: a :: t, h, _ =>
    simp only [stopCheck, Bool.and_eq_true, decide_eq_true_eq] at h
    exact h

/-- Abscissae, ordinates and approximate curvatures of a list as functions of the index. -/
def absc (L : List Node) (i : ℕ) : ℝ := ((L.getD i (0, 0, 0)).1 : ℝ)
/-- See `absc`. -/
def ordi (L : List Node) (i : ℕ) : ℝ := ((L.getD i (0, 0, 0)).2.1 : ℝ)
/-- See `absc`. -/
def curv (L : List Node) (i : ℕ) : ℝ := ((L.getD i (0, 0, 0)).2.2 : ℝ)

theorem absc_get {L : List Node} {i : ℕ} (hi : i < L.length) : absc L i = (L[i].1 : ℝ) := by
  simp [absc, hi]
theorem ordi_get {L : List Node} {i : ℕ} (hi : i < L.length) : ordi L i = (L[i].2.1 : ℝ) := by
  simp [ordi, hi]
theorem curv_get {L : List Node} {i : ℕ} (hi : i < L.length) : curv L i = (L[i].2.2 : ℝ) := by
  simp [curv, hi]

/-- What a successful check says about the table itself. -/
structure Checked (κ e D : ℤ) (L : List Node) : Prop where
  len : 3 ≤ L.length - 1
  kpos : 0 < (κ : ℝ)
  epos : 0 ≤ (e : ℝ)
  Dpos : 2 ≤ (D : ℝ)
  incr : ∀ i < L.length - 1, absc L i < absc L (i + 1)
  ypos : ∀ i < L.length - 1, 0 < ordi L i ∧ 0 < ordi L (i + 1)
  rows : ∀ i, i + 1 < L.length - 1 →
    |row (absc L) (fun j => curv L j / κ) i - rhs (absc L) (ordi L) i| ≤
      e / κ * (width (absc L) i + width (absc L) (i + 1))
  start : |endRow (absc L) (fun j => curv L j / κ) 0| ≤ e / κ * width (absc L) 1
  stop : |endRow (absc L) (fun j => curv L j / κ) (L.length - 1 - 2)| ≤
    e / κ * width (absc L) (L.length - 1 - 2)
  D0 : 3 * width (absc L) 1 + 4 * width (absc L) 0 ≤ D * width (absc L) 1
  D1 : 3 * width (absc L) (L.length - 1 - 2) + 4 * width (absc L) (L.length - 1 - 1)
    ≤ D * width (absc L) (L.length - 1 - 2)
  pos1 : ∀ i < L.length - 1, 3 * width (absc L) i ^ 2 * (D * e) <
    6 * κ * (2 * ordi L i + ordi L (i + 1)) - width (absc L) i ^ 2 * (2 * curv L i + curv L (i + 1))
  pos2 : ∀ i < L.length - 1, 3 * width (absc L) i ^ 2 * (D * e) <
    6 * κ * (ordi L i + 2 * ordi L (i + 1)) - width (absc L) i ^ 2 * (curv L i + 2 * curv L (i + 1))

theorem certCheck_sound {κ e D : ℤ} {L : List Node} (h : certCheck κ e D L = true) :
    Checked κ e D L := by
  simp only [certCheck, Bool.and_eq_true, decide_eq_true_eq] at h
  obtain ⟨⟨⟨⟨⟨⟨⟨hlen, hk⟩, he⟩, hD⟩, hrows⟩, hpos⟩, hstart⟩, hstop⟩ := h
  have hkR : (0:ℝ) < κ := by exact_mod_cast hk
  have hpair : ∀ i, (hi : i + 1 < L.length) → _ := fun i hi => pairsCheck_get hpos i hi
  have hincZ : ∀ i, (hi : i + 1 < L.length) → L[i].1 < L[i + 1].1 := by
    intro i hi
    have := hpair i hi
    simp only [posCheck, Bool.and_eq_true, decide_eq_true_eq] at this
    exact this.1.1.1.1
  have hinc : ∀ i < L.length - 1, absc L i < absc L (i + 1) := by
    intro i hi
    rw [absc_get (by omega), absc_get (by omega)]
    exact_mod_cast hincZ i (by omega)
  have hwidth : ∀ i, (hi : i + 1 < L.length) → width (absc L) i = ((L[i + 1].1 - L[i].1 : ℤ) : ℝ) := by
    intro i hi
    rw [width, absc_get hi, absc_get (by omega)]; push_cast; ring
  constructor
  · omega
  · exact hkR
  · exact_mod_cast he
  · exact_mod_cast hD
  · exact hinc
  · intro i hi
    have := hpair i (by omega)
    simp only [posCheck, Bool.and_eq_true, decide_eq_true_eq] at this
    rw [ordi_get (by omega), ordi_get (by omega)]
    exact ⟨by exact_mod_cast this.1.1.1.2, by exact_mod_cast this.1.1.2⟩
  · intro i hi
    have hr := rowsCheck_get hrows i (by omega)
    simp only [rowCheck, decide_eq_true_eq] at hr
    have hrR : (|(width (absc L) i * width (absc L) (i + 1) * (width (absc L) i * curv L i
        + 2 * (width (absc L) i + width (absc L) (i + 1)) * curv L (i + 1)
        + width (absc L) (i + 1) * curv L (i + 2))
        - 6 * κ * ((ordi L (i + 2) - ordi L (i + 1)) * width (absc L) i
          - (ordi L (i + 1) - ordi L i) * width (absc L) (i + 1)))| : ℝ)
        ≤ e * (width (absc L) i + width (absc L) (i + 1))
          * (width (absc L) i * width (absc L) (i + 1)) := by
      rw [hwidth i (by omega), hwidth (i + 1) (by omega), curv_get (by omega), curv_get (by omega),
        curv_get (by omega), ordi_get (by omega), ordi_get (by omega), ordi_get (by omega)]
      exact_mod_cast hr
    have w0 : 0 < width (absc L) i := by unfold width; linarith [hinc i (by omega)]
    have w1 : 0 < width (absc L) (i + 1) := by unfold width; linarith [hinc (i + 1) (by omega)]
    have hww : 0 < κ * (width (absc L) i * width (absc L) (i + 1)) := by positivity
    rw [← mul_le_mul_iff_of_pos_left hww]
    calc (κ * (width (absc L) i * width (absc L) (i + 1))) *
          |row (absc L) (fun j => curv L j / κ) i - rhs (absc L) (ordi L) i|
        = |(κ * (width (absc L) i * width (absc L) (i + 1))) *
          (row (absc L) (fun j => curv L j / κ) i - rhs (absc L) (ordi L) i)| := by
          rw [abs_mul, abs_of_pos hww]
      _ = _ := by
          congr 1
          rw [show (κ * (width (absc L) i * width (absc L) (i + 1))) *
            (row (absc L) (fun j => curv L j / κ) i - rhs (absc L) (ordi L) i)
            = width (absc L) i * width (absc L) (i + 1) * (width (absc L) i * curv L i
              + 2 * (width (absc L) i + width (absc L) (i + 1)) * curv L (i + 1)
              + width (absc L) (i + 1) * curv L (i + 2))
              - 6 * κ * ((ordi L (i + 2) - ordi L (i + 1)) * width (absc L) i
                - (ordi L (i + 1) - ordi L i) * width (absc L) (i + 1)) by
            simp only [row, rhs]; field_simp]
      _ ≤ _ := hrR
      _ = _ := by field_simp
  · match L, hstart, hlen, hinc, hwidth with
    | a :: b :: c :: t, hs, hlen, hinc, hwidth =>
      simp only [startCheck, Bool.and_eq_true, decide_eq_true_eq] at hs
      have h1 : (|width (absc (a :: b :: c :: t)) 1 * a.2.2 - (width (absc (a :: b :: c :: t)) 0
          + width (absc (a :: b :: c :: t)) 1) * b.2.2 + width (absc (a :: b :: c :: t)) 0 * c.2.2| : ℝ)
          ≤ e * width (absc (a :: b :: c :: t)) 1 := by
        rw [hwidth 0 (by simp), hwidth 1 (by simp)]
        exact_mod_cast hs.1
      rw [← mul_le_mul_iff_of_pos_left hkR]
      calc _ = |κ * endRow (absc (a :: b :: c :: t)) (fun j => curv (a :: b :: c :: t) j / κ) 0| := by
            rw [abs_mul, abs_of_pos hkR]
        _ = _ := by
            congr 1
            simp only [endRow, curv]
            simp only [List.getD_cons_zero, List.getD_cons_succ, Nat.zero_add]
            field_simp
        _ ≤ _ := h1
        _ = _ := by field_simp
  · have hrev : ∀ k, (hk : k < L.length) → L.reverse[k]'(by simpa using hk) = L[L.length - 1 - k] := by
      intro k hk; simp
    have hl : 2 < L.reverse.length := by simp; omega
    have hs : (|(L[L.length - 1 - 0].1 - L[L.length - 1 - 1].1) * L[L.length - 1 - 2].2.2
        - ((L[L.length - 1 - 1].1 - L[L.length - 1 - 2].1) + (L[L.length - 1 - 0].1 - L[L.length - 1 - 1].1))
          * L[L.length - 1 - 1].2.2
        + (L[L.length - 1 - 1].1 - L[L.length - 1 - 2].1) * L[L.length - 1 - 0].2.2| : ℤ)
        ≤ e * (L[L.length - 1 - 1].1 - L[L.length - 1 - 2].1) := by
      rw [← hrev 0 (by omega), ← hrev 1 (by omega), ← hrev 2 (by omega)]
      exact (stopCheck_get hstop hl).1
    have e1 : L.length - 1 - 2 + 1 = L.length - 1 - 1 := by omega
    have e2 : L.length - 1 - 2 + 2 = L.length - 1 - 0 := by omega
    have e3 : L.length - 1 - 1 + 1 = L.length - 1 - 0 := by omega
    have h1 : (|width (absc L) (L.length - 1 - 1) * curv L (L.length - 1 - 2)
        - (width (absc L) (L.length - 1 - 2) + width (absc L) (L.length - 1 - 1)) * curv L (L.length - 1 - 1)
        + width (absc L) (L.length - 1 - 2) * curv L (L.length - 1 - 0)| : ℝ)
        ≤ e * width (absc L) (L.length - 1 - 2) := by
      simp only [width, e1, e3]
      rw [absc_get (i := L.length - 1 - 0) (by omega), absc_get (i := L.length - 1 - 1) (by omega),
        absc_get (i := L.length - 1 - 2) (by omega), curv_get (by omega), curv_get (by omega),
        curv_get (by omega)]
      exact_mod_cast hs
    rw [← mul_le_mul_iff_of_pos_left hkR]
    calc _ = |κ * endRow (absc L) (fun j => curv L j / κ) (L.length - 1 - 2)| := by
            rw [abs_mul, abs_of_pos hkR]
      _ = _ := by
            congr 1
            simp only [endRow, e1, e2]
            field_simp
      _ ≤ _ := h1
      _ = _ := by field_simp
  · match L, hstart, hlen, hinc, hwidth with
    | a :: b :: c :: t, hs, hlen, hinc, hwidth =>
      simp only [startCheck, Bool.and_eq_true, decide_eq_true_eq] at hs
      rw [hwidth 0 (by simp), hwidth 1 (by simp)]
      exact_mod_cast hs.2
  · have hrev : ∀ k, (hk : k < L.length) → L.reverse[k]'(by simpa using hk) = L[L.length - 1 - k] := by
      intro k hk; simp
    have hl : 2 < L.reverse.length := by simp; omega
    have hs : 3 * (L[L.length - 1 - 1].1 - L[L.length - 1 - 2].1)
        + 4 * (L[L.length - 1 - 0].1 - L[L.length - 1 - 1].1)
        ≤ D * (L[L.length - 1 - 1].1 - L[L.length - 1 - 2].1) := by
      rw [← hrev 0 (by omega), ← hrev 1 (by omega), ← hrev 2 (by omega)]
      exact (stopCheck_get hstop hl).2
    have e1 : L.length - 1 - 2 + 1 = L.length - 1 - 1 := by omega
    have e3 : L.length - 1 - 1 + 1 = L.length - 1 - 0 := by omega
    simp only [width, e1, e3]
    rw [absc_get (i := L.length - 1 - 0) (by omega), absc_get (i := L.length - 1 - 1) (by omega),
        absc_get (i := L.length - 1 - 2) (by omega)]
    exact_mod_cast hs
  · intro i hi
    have := hpair i (by omega)
    simp only [posCheck, Bool.and_eq_true, decide_eq_true_eq] at this
    rw [hwidth i (by omega), ordi_get (by omega), ordi_get (by omega), curv_get (by omega),
      curv_get (by omega)]
    exact_mod_cast this.1.2
  · intro i hi
    have := hpair i (by omega)
    simp only [posCheck, Bool.and_eq_true, decide_eq_true_eq] at this
    rw [hwidth i (by omega), ordi_get (by omega), ordi_get (by omega), curv_get (by omega),
      curv_get (by omega)]
    exact_mod_cast this.2

/-- The curvatures of the spline are those of the certificate up to `D e / κ`. -/
theorem curv_close {κ e D : ℤ} {L : List Node} (h : Checked κ e D L) {p : ℕ → Cubic}
    (hp : IsNotAKnot (L.length - 1) (absc L) (ordi L) p) :
    ∀ i ≤ L.length - 1, |nodeCurv (L.length - 1) (absc L) p i - curv L i / κ| ≤ D * (e / κ) := by
  refine bound_all (e := fun i => nodeCurv (L.length - 1) (absc L) p i - curv L i / κ) h.len h.incr
    (div_nonneg h.epos h.kpos.le) ?_ ?_ ?_ h.Dpos h.D0 h.D1
  · intro i hi
    have a := row_eq h.incr hp i hi
    have b := h.rows i hi
    rw [← a] at b
    rw [abs_sub_comm] at b
    refine le_trans (le_of_eq ?_) b
    congr 1
    simp only [row]; ring
  · have a := endRow_start h.len h.incr hp
    have b := h.start
    refine le_trans (le_of_eq ?_) b
    rw [← abs_neg]
    congr 1
    simp only [endRow] at a ⊢
    linarith
  · have a := endRow_stop h.len h.incr hp
    have b := h.stop
    refine le_trans (le_of_eq ?_) b
    rw [← abs_neg]
    congr 1
    simp only [endRow] at a ⊢
    linarith

/-- A piece in terms of its control points (`s` the fraction of the interval). -/
theorem piece_bernstein (x y M : ℕ → ℝ) (i : ℕ) (hw : width x i ≠ 0) (s : ℝ) :
    (pieceOf x y M i).eval (s * width x i) = y i * (1 - s) ^ 3
      + 3 * ((2 * y i + y (i + 1)) / 3 - width x i ^ 2 * (2 * M i + M (i + 1)) / 18) * s * (1 - s) ^ 2
      + 3 * ((y i + 2 * y (i + 1)) / 3 - width x i ^ 2 * (M i + 2 * M (i + 1)) / 18) * s ^ 2 * (1 - s)
      + y (i + 1) * s ^ 3 := by
  simp only [Cubic.eval, pieceOf]
  field_simp
  ring

/-- Soundness for positivity: the spline is positive between the nodes. -/
theorem spline_pos {κ e D : ℤ} {L : List Node} (h : Checked κ e D L) {p : ℕ → Cubic}
    (hp : IsNotAKnot (L.length - 1) (absc L) (ordi L) p) (i : ℕ) (hi : i < L.length - 1) (u : ℝ)
    (hu : 0 ≤ u) (hu1 : u ≤ width (absc L) i) : 0 < (p i).eval u := by
  have w : 0 < width (absc L) i := by unfold width; linarith [h.incr i hi]
  have hs : u = (u / width (absc L) i) * width (absc L) i := by field_simp
  set s := u / width (absc L) i with hsd
  have hs0 : 0 ≤ s := by positivity
  have hs1 : s ≤ 1 := by rw [hsd, div_le_one w]; exact hu1
  rw [piece_eq h.incr hp i hi, hs, piece_bernstein _ _ _ _ w.ne']
  have c0 := abs_le.mp (curv_close h hp i hi.le)
  have c1 := abs_le.mp (curv_close h hp (i + 1) (by omega))
  set M0 := nodeCurv (L.length - 1) (absc L) p i
  set M1 := nodeCurv (L.length - 1) (absc L) p (i + 1)
  have hk := h.kpos
  have q0 : 0 < width (absc L) i ^ 2 := by positivity
  obtain ⟨y0, y1⟩ := h.ypos i hi
  have hb1 : 0 < (2 * ordi L i + ordi L (i + 1)) / 3
      - width (absc L) i ^ 2 * (2 * M0 + M1) / 18 := by
    have := h.pos1 i hi
    have hM : 2 * M0 + M1 ≤ (2 * curv L i + curv L (i + 1) + 3 * (D * e)) / κ := by
      have : (2 * curv L i + curv L (i + 1) + 3 * (D * e)) / κ =
        2 * (curv L i / κ) + curv L (i + 1) / κ + 3 * (D * (e / κ)) := by field_simp
      rw [this]; linarith [c0.2, c1.2]
    have h2 : width (absc L) i ^ 2 * (2 * M0 + M1) < 6 * (2 * ordi L i + ordi L (i + 1)) := by
      refine lt_of_le_of_lt (mul_le_mul_of_nonneg_left hM q0.le) ?_
      rw [← mul_div_assoc, div_lt_iff₀ hk]
      nlinarith
    linarith
  have hb2 : 0 < (ordi L i + 2 * ordi L (i + 1)) / 3
      - width (absc L) i ^ 2 * (M0 + 2 * M1) / 18 := by
    have := h.pos2 i hi
    have hM : M0 + 2 * M1 ≤ (curv L i + 2 * curv L (i + 1) + 3 * (D * e)) / κ := by
      have : (curv L i + 2 * curv L (i + 1) + 3 * (D * e)) / κ =
        curv L i / κ + 2 * (curv L (i + 1) / κ) + 3 * (D * (e / κ)) := by field_simp
      rw [this]; linarith [c0.2, c1.2]
    have h2 : width (absc L) i ^ 2 * (M0 + 2 * M1) < 6 * (ordi L i + 2 * ordi L (i + 1)) := by
      refine lt_of_le_of_lt (mul_le_mul_of_nonneg_left hM q0.le) ?_
      rw [← mul_div_assoc, div_lt_iff₀ hk]
      nlinarith
    linarith
  have t0 : 0 ≤ 1 - s := by linarith
  rcases eq_or_lt_of_le hs0 with hz | hz
  · rw [← hz]; simpa using y0
  · have a1 : 0 ≤ ordi L i * (1 - s) ^ 3 := by positivity
    have a2 : 0 ≤ 3 * ((2 * ordi L i + ordi L (i + 1)) / 3 - width (absc L) i ^ 2 * (2 * M0 + M1) / 18)
        * s * (1 - s) ^ 2 := mul_nonneg (mul_nonneg (mul_nonneg (by norm_num) hb1.le) hs0) (by positivity)
    have a3 : 0 ≤ 3 * ((ordi L i + 2 * ordi L (i + 1)) / 3 - width (absc L) i ^ 2 * (M0 + 2 * M1) / 18)
        * s ^ 2 * (1 - s) := mul_nonneg (mul_nonneg (mul_nonneg (by norm_num) hb2.le) (by positivity)) t0
    have a4 : 0 < ordi L (i + 1) * s ^ 3 := by positivity
    linarith

/-- Soundness for monotonicity within one piece. -/
theorem spline_decreasing {κ e D : ℤ} {L : List Node} (h : Checked κ e D L)
    (hm : pairsCheck (monoCheck κ (D * e)) L = true) {p : ℕ → Cubic}
    (hp : IsNotAKnot (L.length - 1) (absc L) (ordi L) p) (i : ℕ) (hi : i < L.length - 1) (u v : ℝ)
    (hu : 0 ≤ u) (huv : u < v) (hv : v ≤ width (absc L) i) : (p i).eval v < (p i).eval u := by
  have w : 0 < width (absc L) i := by unfold width; linarith [h.incr i hi]
  have hwz : width (absc L) i = ((L[i + 1].1 - L[i].1 : ℤ) : ℝ) := by
    rw [width, absc_get (by omega), absc_get (by omega)]; push_cast; ring
  have hpair := pairsCheck_get hm i (by omega)
  simp only [monoCheck, Bool.and_eq_true, decide_eq_true_eq] at hpair
  obtain ⟨⟨k1, k2⟩, k3⟩ := hpair
  have k1R : 3 * width (absc L) i ^ 2 * (D * e) < 6 * κ * (ordi L i - ordi L (i + 1))
      + width (absc L) i ^ 2 * (2 * curv L i + curv L (i + 1)) := by
    rw [hwz, ordi_get (by omega), ordi_get (by omega), curv_get (by omega), curv_get (by omega)]
    exact_mod_cast k1
  have k2R : 2 * width (absc L) i ^ 2 * (D * e) < 6 * κ * (ordi L i - ordi L (i + 1))
      - width (absc L) i ^ 2 * (curv L i - curv L (i + 1)) := by
    rw [hwz, ordi_get (by omega), ordi_get (by omega), curv_get (by omega), curv_get (by omega)]
    exact_mod_cast k2
  have k3R : 3 * width (absc L) i ^ 2 * (D * e) < 6 * κ * (ordi L i - ordi L (i + 1))
      - width (absc L) i ^ 2 * (curv L i + 2 * curv L (i + 1)) := by
    rw [hwz, ordi_get (by omega), ordi_get (by omega), curv_get (by omega), curv_get (by omega)]
    exact_mod_cast k3
  have hk := h.kpos
  have c0 := abs_le.mp (curv_close h hp i hi.le)
  have c1 := abs_le.mp (curv_close h hp (i + 1) (by omega))
  rw [piece_eq h.incr hp i hi]
  set M0 := nodeCurv (L.length - 1) (absc L) p i
  set M1 := nodeCurv (L.length - 1) (absc L) p (i + 1)
  have q0 : 0 < width (absc L) i ^ 2 := by positivity
  -- the three differences of control points are positive
  have d1 : 0 < 6 * (ordi L i - ordi L (i + 1)) + width (absc L) i ^ 2 * (2 * M0 + M1) := by
    have hM : (2 * curv L i + curv L (i + 1) - 3 * (D * e)) / κ ≤ 2 * M0 + M1 := by
      have : (2 * curv L i + curv L (i + 1) - 3 * (D * e)) / κ =
        2 * (curv L i / κ) + curv L (i + 1) / κ - 3 * (D * (e / κ)) := by field_simp
      rw [this]; linarith [c0.1, c1.1]
    have h2 : -(6 * (ordi L i - ordi L (i + 1))) < width (absc L) i ^ 2 * (2 * M0 + M1) := by
      refine lt_of_lt_of_le ?_ (mul_le_mul_of_nonneg_left hM q0.le)
      rw [← mul_div_assoc, lt_div_iff₀ hk]
      nlinarith
    linarith
  have d2 : 0 < 6 * (ordi L i - ordi L (i + 1)) - width (absc L) i ^ 2 * (M0 - M1) := by
    have hM : M0 - M1 ≤ (curv L i - curv L (i + 1) + 2 * (D * e)) / κ := by
      have : (curv L i - curv L (i + 1) + 2 * (D * e)) / κ =
        curv L i / κ - curv L (i + 1) / κ + 2 * (D * (e / κ)) := by field_simp
      rw [this]; linarith [c0.2, c1.1]
    have h2 : width (absc L) i ^ 2 * (M0 - M1) < 6 * (ordi L i - ordi L (i + 1)) := by
      refine lt_of_le_of_lt (mul_le_mul_of_nonneg_left hM q0.le) ?_
      rw [← mul_div_assoc, div_lt_iff₀ hk]
      nlinarith
    linarith
  have d3 : 0 < 6 * (ordi L i - ordi L (i + 1)) - width (absc L) i ^ 2 * (M0 + 2 * M1) := by
    have hM : M0 + 2 * M1 ≤ (curv L i + 2 * curv L (i + 1) + 3 * (D * e)) / κ := by
      have : (curv L i + 2 * curv L (i + 1) + 3 * (D * e)) / κ =
        curv L i / κ + 2 * (curv L (i + 1) / κ) + 3 * (D * (e / κ)) := by field_simp
      rw [this]; linarith [c0.2, c1.2]
    have h2 : width (absc L) i ^ 2 * (M0 + 2 * M1) < 6 * (ordi L i - ordi L (i + 1)) := by
      refine lt_of_le_of_lt (mul_le_mul_of_nonneg_left hM q0.le) ?_
      rw [← mul_div_assoc, div_lt_iff₀ hk]
      nlinarith
    linarith
  have hus : u = (u / width (absc L) i) * width (absc L) i := by field_simp
  have hvs : v = (v / width (absc L) i) * width (absc L) i := by field_simp
  have hs0 : 0 ≤ u / width (absc L) i := by positivity
  have hst : u / width (absc L) i < v / width (absc L) i := div_lt_div_of_pos_right huv w
  have ht1 : v / width (absc L) i ≤ 1 := by rw [div_le_one w]; exact hv
  rw [hus, hvs, piece_bernstein _ _ _ _ w.ne', piece_bernstein _ _ _ _ w.ne']
  set s := u / width (absc L) i
  set t := v / width (absc L) i
  set y0 := ordi L i
  set y1 := ordi L (i + 1)
  set A := 6 * (y0 - y1) + width (absc L) i ^ 2 * (2 * M0 + M1) with hA
  set B := 6 * (y0 - y1) - width (absc L) i ^ 2 * (M0 - M1) with hB
  set C := 6 * (y0 - y1) - width (absc L) i ^ 2 * (M0 + 2 * M1) with hC
  -- difference quotient as a positive combination
  have key : (y0 * (1 - s) ^ 3
      + 3 * ((2 * y0 + y1) / 3 - width (absc L) i ^ 2 * (2 * M0 + M1) / 18) * s * (1 - s) ^ 2
      + 3 * ((y0 + 2 * y1) / 3 - width (absc L) i ^ 2 * (M0 + 2 * M1) / 18) * s ^ 2 * (1 - s)
      + y1 * s ^ 3) - (y0 * (1 - t) ^ 3
      + 3 * ((2 * y0 + y1) / 3 - width (absc L) i ^ 2 * (2 * M0 + M1) / 18) * t * (1 - t) ^ 2
      + 3 * ((y0 + 2 * y1) / 3 - width (absc L) i ^ 2 * (M0 + 2 * M1) / 18) * t ^ 2 * (1 - t)
      + y1 * t ^ 3) = (t - s) / 18 * (A * ((1 - s) ^ 2 + (1 - s) * (1 - t) + (1 - t) ^ 2)
        + B * (s * (1 - s) * 2 + s * (1 - t) + t * (1 - s) + t * (1 - t) * 2)
        + C * (s ^ 2 + s * t + t ^ 2)) := by
    rw [hA, hB, hC]; ring
  have s1 : 0 < 1 - s := by linarith
  have t1 : 0 ≤ 1 - t := by linarith
  have t0 : 0 ≤ t := by linarith
  have hpos : 0 < A * ((1 - s) ^ 2 + (1 - s) * (1 - t) + (1 - t) ^ 2)
        + B * (s * (1 - s) * 2 + s * (1 - t) + t * (1 - s) + t * (1 - t) * 2)
        + C * (s ^ 2 + s * t + t ^ 2) := by
    have a1 : 0 < A * ((1 - s) ^ 2 + (1 - s) * (1 - t) + (1 - t) ^ 2) := by positivity
    have a2 : 0 ≤ B * (s * (1 - s) * 2 + s * (1 - t) + t * (1 - s) + t * (1 - t) * 2) := by
      have := s1.le; positivity
    have a3 : 0 ≤ C * (s ^ 2 + s * t + t ^ 2) := by positivity
    linarith
  have := mul_pos (show (0:ℝ) < (t - s) / 18 by linarith) hpos
  linarith [key]

end AMAT.Spline
