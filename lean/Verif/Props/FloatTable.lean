import Verif.Model.FloatTable
import Verif.Props.FloatRestart
import Verif.Props.ShippedLaunchers

/-
C118: table lookups in double precision.
-/

noncomputable section

namespace AMAT.Spec

/-- Two rows of a table with no row between them. -/
structure Neighbours (nodes : List (ℝ × ℝ)) (p q : ℝ × ℝ) : Prop where
  left : p ∈ nodes
  right : q ∈ nodes
  order : p.1 < q.1
  between : ∀ c ∈ nodes, c.1 ≤ p.1 ∨ q.1 ≤ c.1

/-- A table of doubles, in any order: no abscissa twice, abscissae up to 2⁹⁹, values zero or not below 2⁻⁹⁰⁰. -/
structure DoubleTable (nodes : List (ℝ × ℝ)) : Prop where
  rows : 2 ≤ nodes.length
  distinct : nodes.Pairwise (fun p q => p.1 ≠ q.1)
  doubles : ∀ p ∈ nodes, p.1 ∈ binary64 ∧ p.2 ∈ binary64
  size : ∀ p ∈ nodes, |p.1| ≤ 2 ^ 99
  values : ∀ p ∈ nodes, p.2 = 0 ∨ (2:ℝ) ^ (-900 : ℤ) ≤ p.2

end AMAT.Spec

namespace AMAT.Props

open AMAT

/-- Negation turns a rounding to nearest into another one. -/
theorem neg_rounds {rnd : ℝ → ℝ} (hr : RoundsTo binary64 rnd) : RoundsTo binary64 (fun x => -rnd (-x)) := by
  refine ⟨fun x => binary64.neg_mem (hr.mem _), fun x y hy => ?_⟩
  have := hr.nearest (-x) (-y) (binary64.neg_mem hy)
  rw [← abs_neg (x - y), show -(x - y) = -x - -y by ring, ← abs_neg (x - -rnd (-x)),
    show -(x - -rnd (-x)) = -x - rnd (-x) by ring]
  exact this

theorem near_one_of {x y : ℝ} (h0 : 0 ≤ x) (h1 : (1 - 2⁻¹ ^ 53) * x ≤ y) (h2 : y ≤ (1 + 2⁻¹ ^ 53) * x) :
    ∃ a, Near 1 a ∧ y = x * a := by
  rcases h0.eq_or_lt with h | h
  · refine ⟨1, by simp [Near], ?_⟩
    rw [← h] at h1 h2 ⊢
    linarith
  · refine ⟨y / x, ?_, by field_simp⟩
    constructor
    · rw [pow_one, le_div_iff₀ h]; exact h1
    · rw [pow_one, div_le_iff₀ h]; exact h2

/-- The rounded sum of two doubles. -/
theorem sum_near {rnd : ℝ → ℝ} (hr : RoundsTo binary64 rnd) {x y : ℝ} (hx : x ∈ binary64) (hy : y ∈ binary64) :
    ∃ a, Near 1 a ∧ rnd (x + y) = (x + y) * a := by
  rcases le_total 0 (x + y) with h | h
  · obtain ⟨h1, h2⟩ := round_add hr hx hy h
    exact near_one_of h h1 h2
  · obtain ⟨h1, h2⟩ := round_add (neg_rounds hr) (binary64.neg_mem hx) (binary64.neg_mem hy) (by linarith)
    obtain ⟨a, ha, e⟩ := near_one_of (by linarith) h1 h2
    refine ⟨a, ha, ?_⟩
    rw [show -(-x + -y) = x + y by ring] at e
    linarith

theorem diff_near {rnd : ℝ → ℝ} (hr : RoundsTo binary64 rnd) {x y : ℝ} (hx : x ∈ binary64) (hy : y ∈ binary64) :
    ∃ a, Near 1 a ∧ rnd (x - y) = (x - y) * a := by
  have := sum_near hr hx (binary64.neg_mem hy)
  rwa [← sub_eq_add_neg] at this

/-- Any rounded number: a relative error, or an absolute one below the smallest double. -/
theorem round_split {rnd : ℝ → ℝ} (hr : RoundsTo binary64 rnd) (x : ℝ) :
    ∃ a b, Near 1 a ∧ |b| ≤ (2:ℝ) ^ (-1074 : ℤ) ∧ rnd x = x * a + b := by
  have hη := binary64.two_zpow_pos (-1074)
  rcases le_or_gt ((2:ℝ) ^ (-1022 : ℤ)) |x| with h | h
  · obtain ⟨a, ha, e⟩ := round_near hr h
    exact ⟨a, 0, ha, by rw [abs_zero]; exact hη.le, by rw [e, add_zero]⟩
  · refine ⟨1, rnd x - x, by simp [Near], ?_, by ring⟩
    have h22 : (2:ℝ) ^ (-1022 : ℤ) = 2 ^ 52 * (2:ℝ) ^ (-1074 : ℤ) := by
      rw [show (-1022:ℤ) = 52 + (-1074) by norm_num, binary64.two_zpow_add]; norm_cast
    have h75 : (2:ℝ) ^ (-1074 : ℤ) = 2 * (2:ℝ) ^ (-1075 : ℤ) := by
      rw [show (-1074:ℤ) = 1 + (-1075) by norm_num, binary64.two_zpow_add, zpow_one]
    rw [h22] at h
    have hu : (2⁻¹:ℝ) ^ 53 * |x| ≤ (2:ℝ) ^ (-1075 : ℤ) := by
      have : (2⁻¹:ℝ) ^ 53 * |x| ≤ (2⁻¹:ℝ) ^ 53 * (2 ^ 52 * (2:ℝ) ^ (-1074 : ℤ)) :=
        mul_le_mul_of_nonneg_left h.le (by norm_num)
      rw [h75] at this
      calc _ ≤ _ := this
        _ = (2:ℝ) ^ (-1075 : ℤ) := by ring
    rcases le_total 0 x with h0 | h0
    · rw [abs_of_nonneg h0] at hu
      obtain ⟨h1, h2⟩ := round_any hr h0
      rw [abs_le]; constructor <;> linarith
    · rw [abs_of_nonpos h0] at hu
      obtain ⟨h1, h2⟩ := round_any (neg_rounds hr) (x := -x) (by linarith)
      rw [neg_neg] at h1 h2
      rw [abs_le]; constructor <;> linarith

theorem near_inv {a : ℝ} (h : Near 1 a) : Near 2 a⁻¹ := by
  have h0 := near_pos h
  obtain ⟨h1, h2⟩ := h
  rw [pow_one] at h1 h2
  constructor
  · rw [le_inv_comm₀ (by norm_num) h0]
    exact h2.trans (by norm_num)
  · rw [inv_le_comm₀ h0 (by norm_num)]
    exact le_trans (by norm_num) h1

/-- One line of a table: the rounded value is within 2⁻⁵⁰ times the larger of the two tabulated values. -/
theorem lineR_accurate {rnd : ℝ → ℝ} (hr : RoundsTo binary64 rnd) {p q : ℝ × ℝ} {x M : ℝ} (hp1 : p.1 ∈ binary64)
    (hp2 : p.2 ∈ binary64) (hq1 : q.1 ∈ binary64) (hq2 : q.2 ∈ binary64) (hx : x ∈ binary64) (hpq : p.1 < q.1) (h1 : p.1 ≤ x)
    (h2 : x ≤ q.1) (p0 : 0 ≤ p.2) (q0 : 0 ≤ q.2) (pM : p.2 ≤ M) (qM : q.2 ≤ M) (hM : (2:ℝ) ^ (-900 : ℤ) ≤ M)
    (hw : q.1 - p.1 ≤ 2 ^ 100) : |lineR rnd p q x - lineThrough p q x| ≤ 2⁻¹ ^ 50 * M := by
  obtain ⟨a1, n1, e1⟩ := diff_near hr hq2 hp2
  obtain ⟨a2, n2, e2⟩ := diff_near hr hq1 hp1
  obtain ⟨a3, n3, e3⟩ := diff_near hr hx hp1
  obtain ⟨a4, b4, n4, k4, e4⟩ := round_split hr (rnd (q.2 - p.2) / rnd (q.1 - p.1))
  obtain ⟨a5, b5, n5, k5, e5⟩ := round_split hr (rnd (rnd (q.2 - p.2) / rnd (q.1 - p.1)) * rnd (x - p.1))
  obtain ⟨a6, n6, e6⟩ := sum_near hr (hr.mem (rnd (rnd (q.2 - p.2) / rnd (q.1 - p.1)) * rnd (x - p.1))) hp2
  have hη := binary64.two_zpow_pos (-1074)
  have h9 : (2:ℝ) ^ (-900 : ℤ) = 2 ^ 174 * (2:ℝ) ^ (-1074 : ℤ) := by
    rw [show (-900:ℤ) = 174 + (-1074) by norm_num, binary64.two_zpow_add]; norm_cast
  rw [h9] at hM
  generalize (2:ℝ) ^ (-1074 : ℤ) = η at *
  have hκ := near_mul (near_mul (near_mul (near_mul n1 n3) n4) n5) (near_inv n2)
  have he : 0 < q.1 - p.1 := by linarith
  have ha2 := near_pos n2
  have ha3 := near_pos n3
  have ha5 := near_pos n5
  have ha6 := near_pos n6
  set κ := a1 * a3 * a4 * a5 * a2⁻¹ with hκd
  have hκ1 : |κ - 1| ≤ 6.1 * 2⁻¹ ^ 53 := by
    have a : (1:ℝ) - 6.1 * 2⁻¹ ^ 53 ≤ (1 - 2⁻¹ ^ 53) ^ (1 + 1 + 1 + 1 + 2) := by norm_num
    have b : (1 + 2⁻¹ ^ 53 : ℝ) ^ (1 + 1 + 1 + 1 + 2) ≤ 1 + 6.1 * 2⁻¹ ^ 53 := by norm_num
    rw [abs_le]
    constructor <;> linarith [hκ.1, hκ.2]
  set t := (x - p.1) / (q.1 - p.1) with ht
  have ht0 : 0 ≤ t := div_nonneg (by linarith) he.le
  have ht1 : t ≤ 1 := by rw [ht, div_le_one he]; linarith
  set w := (q.2 - p.2) * t with hwd
  have hline : lineThrough p q x = w + p.2 := by
    unfold lineThrough; rw [hwd, ht]; ring
  have hP : lineR rnd p q x = (w * κ + (b4 * ((x - p.1) * a3) * a5 + b5) + p.2) * a6 := by
    unfold lineR
    rw [e6, e5, e4, e1, e2, e3, hwd, hκd, ht]
    congr 2
    field_simp
    ring
  set ε := b4 * ((x - p.1) * a3) * a5 + b5 with hε
  have hε1 : |ε| ≤ 2 ^ 103 * η := by
    have c1 : |b4 * ((x - p.1) * a3) * a5| ≤ η * (2 ^ 100 * 2) * 2 := by
      rw [abs_mul, abs_mul, abs_mul, abs_of_pos ha3, abs_of_pos ha5, abs_of_nonneg (by linarith : 0 ≤ x - p.1)]
      have u3 : a3 ≤ 2 := n3.2.trans (by norm_num)
      have u5 : a5 ≤ 2 := n5.2.trans (by norm_num)
      have : (x - p.1) * a3 ≤ 2 ^ 100 * 2 := mul_le_mul (by linarith) u3 ha3.le (by norm_num)
      have h3 : 0 ≤ (x - p.1) * a3 := mul_nonneg (by linarith) ha3.le
      exact mul_le_mul (mul_le_mul k4 this h3 hη.le) u5 ha5.le (by positivity)
    calc |ε| ≤ |b4 * ((x - p.1) * a3) * a5| + |b5| := abs_add_le _ _
      _ ≤ η * (2 ^ 100 * 2) * 2 + η := add_le_add c1 k5
      _ ≤ 2 ^ 103 * η := by
        have : (2:ℝ) ^ 103 * η = η * (2 ^ 100 * 2) * 2 + η * 2 ^ 102 := by ring
        rw [this]
        have : η * 1 ≤ η * 2 ^ 102 := mul_le_mul_of_nonneg_left (by norm_num) hη.le
        linarith
  have hM0 : 0 ≤ M := p0.trans pM
  have hw1 : |w| ≤ M := by
    rw [hwd, abs_mul, abs_of_nonneg ht0]
    have : |q.2 - p.2| ≤ M := by rw [abs_le]; constructor <;> linarith
    calc |q.2 - p.2| * t ≤ M * 1 := mul_le_mul this ht1 ht0 hM0
      _ = M := mul_one M
  have hs : |w + p.2| ≤ M := by
    have : w + p.2 = t * q.2 + (1 - t) * p.2 := by rw [hwd]; ring
    rw [this, abs_of_nonneg (add_nonneg (mul_nonneg ht0 q0) (mul_nonneg (by linarith) p0))]
    have c1 : t * q.2 ≤ t * M := mul_le_mul_of_nonneg_left qM ht0
    have c2 : (1 - t) * p.2 ≤ (1 - t) * M := mul_le_mul_of_nonneg_left pM (by linarith)
    linarith
  have h6 : |a6 - 1| ≤ 2⁻¹ ^ 53 := by
    have := n6.1; have := n6.2
    rw [pow_one] at *
    rw [abs_le]; constructor <;> linarith
  have h6' : |a6| ≤ 1.01 := by rw [abs_of_pos ha6]; exact n6.2.trans (by norm_num)
  rw [hP, hline, show (w * κ + ε + p.2) * a6 - (w + p.2) = (w + p.2) * (a6 - 1) + w * (κ - 1) * a6 + ε * a6 by ring]
  have d1 : |(w + p.2) * (a6 - 1)| ≤ M * 2⁻¹ ^ 53 := by
    rw [abs_mul]; exact mul_le_mul hs h6 (abs_nonneg _) hM0
  have d2 : |w * (κ - 1) * a6| ≤ M * (6.1 * 2⁻¹ ^ 53) * 1.01 := by
    rw [abs_mul, abs_mul]
    exact mul_le_mul (mul_le_mul hw1 hκ1 (abs_nonneg _) hM0) h6' (abs_nonneg _) (mul_nonneg hM0 (by norm_num))
  have d3 : |ε * a6| ≤ 2 ^ 103 * η * 1.01 := by
    rw [abs_mul]; exact mul_le_mul hε1 h6' (abs_nonneg _) (by positivity)
  have d4 : 2 ^ 103 * η * 1.01 ≤ M * (2⁻¹ ^ 70) := by
    have : M * (2⁻¹ ^ 70) ≥ 2 ^ 174 * η * (2⁻¹ ^ 70) := mul_le_mul_of_nonneg_right hM (by norm_num)
    have c : 2 ^ 174 * η * (2⁻¹ ^ 70) = 2 ^ 103 * η * 2 := by norm_num; ring
    have : 0 < 2 ^ 103 * η := by positivity
    linarith
  refine (abs_add_three _ _ _).trans ?_
  have : M * 2⁻¹ ^ 53 + M * (6.1 * 2⁻¹ ^ 53) * 1.01 + M * (2⁻¹ ^ 70) ≤ 2⁻¹ ^ 50 * M := by
    have : (2⁻¹ ^ 53 + (6.1 * 2⁻¹ ^ 53) * 1.01 + 2⁻¹ ^ 70 : ℝ) ≤ 2⁻¹ ^ 50 := by norm_num
    have := mul_le_mul_of_nonneg_right this hM0
    linarith
  linarith

theorem interpSegR_cases (rnd : ℝ → ℝ) (c : LinearCode) (l : List (ℝ × ℝ)) (hs : l.Pairwise (fun p q => p.1 < q.1))
    (hlen : 2 ≤ l.length) (x : ℝ) {lo hi : ℝ × ℝ} (hlo : l.head? = some lo) (hhi : l.getLast? = some hi) (h1 : lo.1 ≤ x)
    (h2 : x ≤ hi.1) : ∃ pre a b post, l = pre ++ a :: b :: post ∧ a.1 ≤ x ∧ x ≤ b.1 ∧
      (interpSegR rnd c l x = lineR rnd a b x ∧ (c = .numpy → a.1 < x ∧ x < b.1) ∨
        x = a.1 ∧ interpSegR rnd c l x = a.2 ∨ x = b.1 ∧ interpSegR rnd c l x = b.2) := by
  induction l generalizing lo with
  | nil => simp at hlen
  | cons p l ih =>
    cases l with
    | nil => simp at hlen
    | cons q rest =>
      simp at hlo
      subst hlo
      have hpq : p.1 < q.1 := by simp only [List.pairwise_cons] at hs; exact hs.1 q (by simp)
      have hs' : (q :: rest).Pairwise (fun p q => p.1 < q.1) := by simp only [List.pairwise_cons] at hs ⊢; exact hs.2
      have hlast : (q :: rest).getLast? = some hi := by rw [List.getLast?_cons_cons] at hhi; exact hhi
      have next : ∀ (h : q.1 ≤ x) (hr : rest ≠ []) (e : interpSegR rnd c (p :: q :: rest) x = interpSegR rnd c (q :: rest) x),
          ∃ pre a b post, p :: q :: rest = pre ++ a :: b :: post ∧ a.1 ≤ x ∧ x ≤ b.1 ∧
            (interpSegR rnd c (p :: q :: rest) x = lineR rnd a b x ∧ (c = .numpy → a.1 < x ∧ x < b.1) ∨
            x = a.1 ∧ interpSegR rnd c (p :: q :: rest) x = a.2 ∨
            x = b.1 ∧ interpSegR rnd c (p :: q :: rest) x = b.2) := by
        intro h hr e
        have hl2 : 2 ≤ (q :: rest).length := by
          cases rest with
          | nil => exact absurd rfl hr
          | cons r t => simp
        obtain ⟨pre, a, b, post, he, k⟩ := ih hs' hl2 (lo := q) rfl hlast h
        exact ⟨p :: pre, a, b, post, by rw [he]; rfl, by rw [e]; exact k⟩
      cases c with
      | scipy =>
        by_cases hx : x ≤ q.1 ∨ rest = []
        · have hxq : x ≤ q.1 := by
            rcases hx with h | rfl
            · exact h
            · simp at hlast; subst hlast; exact h2
          refine ⟨[], p, q, rest, rfl, h1, hxq, Or.inl ⟨?_, by intro h; cases h⟩⟩
          simp only [interpSegR]
          rw [if_pos hx]
        · rw [not_or, not_le] at hx
          refine next hx.1.le hx.2 ?_
          rw [interpSegR, if_neg (by rw [not_or, not_le]; exact hx)]
      | numpy =>
        by_cases hxp : x = p.1
        · refine ⟨[], p, q, rest, rfl, h1, by linarith, Or.inr (Or.inl ⟨hxp, ?_⟩)⟩
          simp only [interpSegR]
          rw [if_pos hxp]
        · by_cases hxq : x < q.1
          · refine ⟨[], p, q, rest, rfl, h1, hxq.le, Or.inl ⟨?_, fun _ => ⟨lt_of_le_of_ne h1 (Ne.symm hxp), hxq⟩⟩⟩
            simp only [interpSegR]
            rw [if_neg hxp, if_pos hxq]
          · have e : interpSegR rnd .numpy (p :: q :: rest) x = interpSegR rnd .numpy (q :: rest) x := by
              rw [interpSegR, if_neg hxp, if_neg hxq]
            rw [not_lt] at hxq
            cases rest with
            | nil =>
              simp at hlast
              subst hlast
              refine ⟨[], p, q, [], rfl, h1, h2, Or.inr (Or.inr ⟨le_antisymm h2 hxq, ?_⟩)⟩
              rw [e]; rfl
            | cons r t => exact next hxq (by simp) e

theorem lineR_zero {rnd : ℝ → ℝ} (hr : RoundsTo binary64 rnd) {p q : ℝ × ℝ} (x : ℝ) (hp : p.2 = 0) (hq : q.2 = 0) :
    lineR rnd p q x = 0 := by
  unfold lineR
  rw [hp, hq, sub_zero, round_zero hr, zero_div, round_zero hr, zero_mul, round_zero hr, add_zero, round_zero hr]

theorem interp1dR_ok {rnd : ℝ → ℝ} {c : LinearCode} {nodes : List (ℝ × ℝ)} (h : 2 ≤ nodes.length) (lo hi : ℝ) :
    interp1dR rnd c nodes lo hi = .ok (interpSortedR rnd c (sortedNodes nodes) lo hi) := by
  unfold interp1dR
  rw [if_neg (by omega)]

theorem interp1d_ok {nodes : List (ℝ × ℝ)} (h : 2 ≤ nodes.length) (lo hi : ℝ) :
    interp1d nodes lo hi = .ok (interpSorted (sortedNodes nodes) lo hi) := by
  unfold interp1d
  rw [if_neg (by omega)]

/-- Without rounding the lookup of SciPy is the one of the exact model. -/
theorem interp1dR_id (nodes : List (ℝ × ℝ)) (lo hi : ℝ) : interp1dR id .scipy nodes lo hi = interp1d nodes lo hi := by
  have h : ∀ l x, interpSegR id .scipy l x = interpSeg l x := by
    intro l x
    induction l with
    | nil => rfl
    | cons p l ih =>
      cases l with
      | nil => rfl
      | cons q rest =>
        rw [interpSegR, interpSeg, ih]
        rfl
  have h2 : ∀ l, interpSortedR id .scipy l lo hi = interpSorted l lo hi := by
    intro l; funext x; unfold interpSortedR interpSorted
    cases l.head? <;> cases l.getLast? <;> simp only [h]
  unfold interp1dR interp1d
  rw [h2]

/-- What both lookups give inside a table. -/
theorem lookup_inside (rnd : ℝ → ℝ) (c : LinearCode) {nodes : List (ℝ × ℝ)}
    (hT : Spec.DoubleTable nodes) (lo hi x : ℝ) (h1 : ∃ p ∈ nodes, p.1 ≤ x) (h2 : ∃ p ∈ nodes, x ≤ p.1) :
    ∃ p q, Spec.Neighbours nodes p q ∧ p.1 ≤ x ∧ x ≤ q.1 ∧ interpSorted (sortedNodes nodes) lo hi x = lineThrough p q x ∧
      (interpSortedR rnd c (sortedNodes nodes) lo hi x = lineR rnd p q x ∧ (c = .numpy → p.1 < x ∧ x < q.1) ∨
        x = p.1 ∧ interpSortedR rnd c (sortedNodes nodes) lo hi x = p.2 ∨
        x = q.1 ∧ interpSortedR rnd c (sortedNodes nodes) lo hi x = q.2) := by
  obtain ⟨e0, e1, he0, he1⟩ := sortedNodes_ends hT.rows
  have hal := head_least (sortedNodes_le nodes) he0
  have hbl := last_greatest (sortedNodes_le nodes) he1
  have hs := sortedNodes_lt nodes hT.distinct
  obtain ⟨p1, m1, k1⟩ := h1
  obtain ⟨p2, m2, k2⟩ := h2
  have x1 := (hal.2 p1 (sortedNodes_mem.mpr m1)).trans k1
  have x2 := k2.trans (hbl.2 p2 (sortedNodes_mem.mpr m2))
  rw [interpSorted_inside he0 he1 lo hi x1 x2]
  have hR : interpSortedR rnd c (sortedNodes nodes) lo hi x = interpSegR rnd c (sortedNodes nodes) x := by
    simp [interpSortedR, he0, he1, not_lt.mpr x1, not_lt.mpr x2]
  rw [hR]
  obtain ⟨pre, a, b, post, hl, hax, hxb, k⟩ := interpSegR_cases rnd c (sortedNodes nodes) hs
    (by rw [sortedNodes_length]; exact hT.rows) x he0 he1 x1 x2
  have ha : a ∈ nodes := sortedNodes_mem.mp (by rw [hl]; simp)
  have hb : b ∈ nodes := sortedNodes_mem.mp (by rw [hl]; simp)
  have hs2 := hs
  rw [hl] at hs2
  refine ⟨a, b, ⟨ha, hb, ?_, ?_⟩, hax, hxb, by rw [hl]; exact interpSeg_adjacent pre post a b _ hs2 ⟨hax, hxb⟩, k⟩
  · rw [List.pairwise_append] at hs2
    have := hs2.2.1
    simp only [List.pairwise_cons] at this
    exact this.1 b (by simp)
  · intro d hd
    have hd' := sortedNodes_mem.mpr hd
    rw [hl] at hd'
    rw [List.pairwise_append] at hs2
    obtain ⟨-, hm, hc⟩ := hs2
    simp only [List.pairwise_cons] at hm
    rcases List.mem_append.mp hd' with h | h
    · left; exact (hc d h a (by simp)).le
    · rcases List.mem_cons.mp h with rfl | h
      · left; exact le_rfl
      · rcases List.mem_cons.mp h with rfl | h
        · right; exact le_rfl
        · right; exact (hm.2.1 d h).le

/-- C118: between two rows of a table of doubles the lookup in double precision differs from the exact one by at most 2⁻⁵⁰
times the larger of the two tabulated values, whichever code evaluates it. -/
theorem C118_lookup_accurate {rnd : ℝ → ℝ} (hr : RoundsTo binary64 rnd) (c : LinearCode) (nodes : List (ℝ × ℝ))
    (hT : Spec.DoubleTable nodes) (lo hi : ℝ) : ∃ f fR, interp1d nodes lo hi = .ok f ∧ interp1dR rnd c nodes lo hi = .ok fR ∧
      ∀ x ∈ binary64, (∃ p ∈ nodes, p.1 ≤ x) → (∃ p ∈ nodes, x ≤ p.1) →
        ∃ p q, Spec.Neighbours nodes p q ∧ p.1 ≤ x ∧ x ≤ q.1 ∧ |fR x - f x| ≤ 2⁻¹ ^ 50 * max p.2 q.2 := by
  refine ⟨_, _, interp1d_ok hT.rows lo hi, interp1dR_ok hT.rows lo hi, fun x hx h1 h2 => ?_⟩
  obtain ⟨p, q, hN, hpx, hxq, he, k⟩ := lookup_inside rnd c hT lo hi x h1 h2
  refine ⟨p, q, hN, hpx, hxq, ?_⟩
  have hη := binary64.two_zpow_pos (-900)
  have nn : ∀ r ∈ nodes, 0 ≤ r.2 := by
    intro r hr
    rcases hT.values r hr with h | h
    · exact h.ge
    · exact hη.le.trans h
  have hM : 0 ≤ max p.2 q.2 := (nn p hN.left).trans (le_max_left _ _)
  rw [he]
  rcases k with ⟨k, -⟩ | ⟨kx, k⟩ | ⟨kx, k⟩
  · rw [k]
    obtain ⟨a1, a2⟩ := hT.doubles p hN.left
    obtain ⟨b1, b2⟩ := hT.doubles q hN.right
    by_cases hz : p.2 = 0 ∧ q.2 = 0
    · rw [lineR_zero hr x hz.1 hz.2]
      have : lineThrough p q x = 0 := by unfold lineThrough; rw [hz.1, hz.2]; ring
      rw [this, sub_zero, abs_zero]
      exact mul_nonneg (by norm_num) hM
    · have hbig : (2:ℝ) ^ (-900 : ℤ) ≤ max p.2 q.2 := by
        rcases hT.values p hN.left with h | h
        · rcases hT.values q hN.right with h' | h'
          · exact absurd ⟨h, h'⟩ hz
          · exact h'.trans (le_max_right _ _)
        · exact h.trans (le_max_left _ _)
      have hw : q.1 - p.1 ≤ 2 ^ 100 := by
        have s1 := (abs_le.mp (hT.size p hN.left)).1
        have s2 := (abs_le.mp (hT.size q hN.right)).2
        have : (2:ℝ) ^ 100 = 2 ^ 99 + 2 ^ 99 := by norm_num
        linarith
      exact lineR_accurate hr a1 a2 b1 b2 hx hN.order hpx hxq (nn p hN.left) (nn q hN.right) (le_max_left _ _)
        (le_max_right _ _) hbig hw
  · rw [k, kx, lineThrough_left, sub_self, abs_zero]
    exact mul_nonneg (by norm_num) hM
  · rw [k, kx, lineThrough_right hN.order.ne, sub_self, abs_zero]
    exact mul_nonneg (by norm_num) hM

/-- C118: outside the table the fill values are returned exactly. -/
theorem C118_outside (rnd : ℝ → ℝ) (c : LinearCode) (nodes : List (ℝ × ℝ)) (hl : 2 ≤ nodes.length) (lo hi : ℝ) :
    ∃ fR, interp1dR rnd c nodes lo hi = .ok fR ∧ ∀ x, ((∀ p ∈ nodes, x < p.1) → fR x = lo) ∧
      ((∀ p ∈ nodes, p.1 < x) → fR x = hi) := by
  refine ⟨_, interp1dR_ok hl lo hi, fun x => ?_⟩
  obtain ⟨a, b, ha, hb⟩ := sortedNodes_ends hl
  have hal := head_least (sortedNodes_le nodes) ha
  have hbl := last_greatest (sortedNodes_le nodes) hb
  constructor
  · intro h
    simp [interpSortedR, ha, hb, h a (sortedNodes_mem.mp hal.1)]
  · intro h
    have h1 : ¬ x < a.1 := by linarith [h a (sortedNodes_mem.mp hal.1)]
    simp [interpSortedR, ha, hb, h1, h b (sortedNodes_mem.mp hbl.1)]

/-- C118: the code NumPy uses returns tabulated values exactly. -/
theorem C118_rows_exact (rnd : ℝ → ℝ) (nodes : List (ℝ × ℝ)) (hT : Spec.DoubleTable nodes)
    (lo hi : ℝ) : ∃ fR, interp1dR rnd .numpy nodes lo hi = .ok fR ∧ ∀ p ∈ nodes, fR p.1 = p.2 := by
  refine ⟨_, interp1dR_ok hT.rows lo hi, fun p hp => ?_⟩
  obtain ⟨a, b, hN, hpx, hxq, -, k⟩ := lookup_inside rnd .numpy hT lo hi p.1 ⟨p, hp, le_rfl⟩ ⟨p, hp, le_rfl⟩
  have same : ∀ r ∈ nodes, p.1 = r.1 → p = r := by
    intro r hr' h
    by_contra hne
    have : Std.Symm (fun p q : ℝ × ℝ => p.1 ≠ q.1) := ⟨fun _ _ h => Ne.symm h⟩
    exact (hT.distinct.forall hp hr' hne) h
  rcases k with ⟨-, k⟩ | ⟨kx, k⟩ | ⟨kx, k⟩
  · obtain ⟨k1, k2⟩ := k rfl
    rcases hN.between p hp with h | h <;> linarith
  · rw [k, same a hN.left kx]
  · rw [k, same b hN.right kx]

/-- C118: a table of positive values in which neighbours differ by a factor of at most 2⁴⁹ gives positive values everywhere
inside, never above the largest tabulated value by more than a relative 2⁻⁵⁰. -/
theorem C118_stays_positive {rnd : ℝ → ℝ} (hr : RoundsTo binary64 rnd) (c : LinearCode) (nodes : List (ℝ × ℝ))
    (hT : Spec.DoubleTable nodes) (lo hi B : ℝ) (hpos : ∀ p ∈ nodes, 0 < p.2) (hB : ∀ p ∈ nodes, p.2 ≤ B)
    (hratio : ∀ p q, Spec.Neighbours nodes p q → p.2 ≤ 2 ^ 49 * q.2 ∧ q.2 ≤ 2 ^ 49 * p.2) :
    ∃ fR, interp1dR rnd c nodes lo hi = .ok fR ∧ ∀ x ∈ binary64, (∃ p ∈ nodes, p.1 ≤ x) → (∃ p ∈ nodes, x ≤ p.1) →
      0 < fR x ∧ fR x ≤ (1 + 2⁻¹ ^ 50) * B := by
  obtain ⟨f, fR, hf, hfR, acc⟩ := C118_lookup_accurate hr c nodes hT lo hi
  refine ⟨fR, hfR, fun x hx h1 h2 => ?_⟩
  obtain ⟨p, q, hN, hpx, hxq, e⟩ := acc x hx h1 h2
  have hp := hpos p hN.left
  have hq := hpos q hN.right
  have hfx : f x = lineThrough p q x := by
    have h3 := C05_table_linear_between_neighbours nodes lo hi f hf hT.distinct p q hN.left hN.right hN.order hN.between
      ((x - p.1) / (q.1 - p.1)) ⟨div_nonneg (by linarith) (by linarith [hN.order]),
        by rw [div_le_one (by linarith [hN.order])]; linarith⟩
    have hne : q.1 - p.1 ≠ 0 := by linarith [hN.order]
    have e1 : (1 - (x - p.1) / (q.1 - p.1)) * p.1 + (x - p.1) / (q.1 - p.1) * q.1 = x := by field_simp; ring
    rw [e1] at h3
    rw [h3]; unfold lineThrough; field_simp; ring
  obtain ⟨l1, l2⟩ := lineThrough_bounds hN.order ⟨hpx, hxq⟩ (m := min p.2 q.2) (M := max p.2 q.2)
    ⟨min_le_left _ _, le_max_left _ _⟩ ⟨min_le_right _ _, le_max_right _ _⟩
  rw [← hfx] at l1 l2
  obtain ⟨r1, r2⟩ := hratio p q hN
  have hmin : 0 < min p.2 q.2 := lt_min hp hq
  have hmm : max p.2 q.2 ≤ 2 ^ 49 * min p.2 q.2 := by
    rcases le_total p.2 q.2 with h | h
    · rw [max_eq_right h, min_eq_left h]; exact r2
    · rw [max_eq_left h, min_eq_right h]; exact r1
  have hMB : max p.2 q.2 ≤ B := max_le (hB p hN.left) (hB q hN.right)
  obtain ⟨e1, e2⟩ := abs_le.mp e
  have c1 : (2⁻¹:ℝ) ^ 50 * max p.2 q.2 ≤ 2⁻¹ ^ 50 * (2 ^ 49 * min p.2 q.2) := mul_le_mul_of_nonneg_left hmm (by norm_num)
  have c2 : (2⁻¹:ℝ) ^ 50 * (2 ^ 49 * min p.2 q.2) = min p.2 q.2 / 2 := by
    generalize min p.2 q.2 = y; norm_num; ring
  have c3 : (2⁻¹:ℝ) ^ 50 * max p.2 q.2 ≤ 2⁻¹ ^ 50 * B := mul_le_mul_of_nonneg_left hMB (by norm_num)
  constructor <;> linarith

/-- C118: in a table with falling values the lookup falls, up to 2⁻⁴⁹ times the largest value. -/
theorem C118_falls {rnd : ℝ → ℝ} (hr : RoundsTo binary64 rnd) (c : LinearCode) (nodes : List (ℝ × ℝ))
    (hT : Spec.DoubleTable nodes) (lo hi B : ℝ) (hB : ∀ p ∈ nodes, p.2 ≤ B)
    (hdec : ∀ p ∈ nodes, ∀ q ∈ nodes, p.1 ≤ q.1 → q.2 ≤ p.2) : ∃ fR, interp1dR rnd c nodes lo hi = .ok fR ∧
      ∀ x ∈ binary64, ∀ y ∈ binary64, x ≤ y → (∃ p ∈ nodes, p.1 ≤ x) → (∃ p ∈ nodes, y ≤ p.1) →
        fR y ≤ fR x + 2⁻¹ ^ 49 * B := by
  obtain ⟨f, fR, hf, hfR, acc⟩ := C118_lookup_accurate hr c nodes hT lo hi
  refine ⟨fR, hfR, fun x hx y hy hxy h1 h2 => ?_⟩
  have h1' : ∃ p ∈ nodes, p.1 ≤ y := by obtain ⟨p, hp, h⟩ := h1; exact ⟨p, hp, h.trans hxy⟩
  have h2' : ∃ p ∈ nodes, x ≤ p.1 := by obtain ⟨p, hp, h⟩ := h2; exact ⟨p, hp, hxy.trans h⟩
  obtain ⟨p, q, hN, -, -, e⟩ := acc x hx h1 h2'
  obtain ⟨p', q', hN', -, -, e'⟩ := acc y hy h1' h2
  have k := C05_table_antitone nodes lo hi f hf hT.distinct hdec x y hxy h1 h2
  have b1 : (2⁻¹:ℝ) ^ 50 * max p.2 q.2 ≤ 2⁻¹ ^ 50 * B :=
    mul_le_mul_of_nonneg_left (max_le (hB p hN.left) (hB q hN.right)) (by norm_num)
  have b2 : (2⁻¹:ℝ) ^ 50 * max p'.2 q'.2 ≤ 2⁻¹ ^ 50 * B :=
    mul_le_mul_of_nonneg_left (max_le (hB p' hN'.left) (hB q' hN'.right)) (by norm_num)
  have b3 : (2⁻¹:ℝ) ^ 49 * B = 2⁻¹ ^ 50 * B + 2⁻¹ ^ 50 * B := by ring
  obtain ⟨e1, e2⟩ := abs_le.mp e
  obtain ⟨e1', e2'⟩ := abs_le.mp e'
  linarith

/-- C118: the code of SciPy need not return tabulated values exactly: in the table with the rows (0, 0) and (49, 1) it finds
0.9999999999999999 at 49. -/
theorem C118_scipy_not_exact {rnd : ℝ → ℝ} (hr : RoundsTo binary64 rnd) (lo hi : ℝ) : ∃ fR,
    interp1dR rnd .scipy [(0, 0), (49, 1)] lo hi = .ok fR ∧ fR 49 = 1 - 2⁻¹ ^ 53 := by
  have e49 : rnd 49 = 49 := hr.eq_self ⟨49, 0, by norm_num, by norm_num, by norm_num⟩
  have e1 : rnd 1 = 1 := hr.eq_self one_mem_binary64
  have es : rnd (1 / 49) = 5882252574524729 * (2:ℝ) ^ (-58 : ℤ) := by
    have := binary64.round_eq hr 5882252574524729 (-58) (x := 1 / 49) (by norm_num) (by norm_num) (by norm_num)
      (by norm_num [abs_lt])
    exact_mod_cast this
  have ep : rnd (5882252574524729 * (2:ℝ) ^ (-58 : ℤ) * 49) = 9007199254740991 * (2:ℝ) ^ (-53 : ℤ) := by
    have := binary64.round_eq hr 9007199254740991 (-53) (x := 5882252574524729 * (2:ℝ) ^ (-58 : ℤ) * 49) (by norm_num)
      (by norm_num) (by norm_num) (by norm_num [abs_lt])
    exact_mod_cast this
  have ef : rnd (9007199254740991 * (2:ℝ) ^ (-53 : ℤ)) = 9007199254740991 * (2:ℝ) ^ (-53 : ℤ) :=
    hr.eq_self ⟨9007199254740991, -53, by norm_num, by norm_num, by norm_num⟩
  refine ⟨_, interp1dR_ok (by simp) lo hi, ?_⟩
  have hsort : sortedNodes [((0:ℝ), (0:ℝ)), (49, 1)] = [(0, 0), (49, 1)] := by
    apply List.mergeSort_of_pairwise
    simp
  rw [hsort]
  simp only [interpSortedR, List.head?_cons, List.getLast?_cons_cons, List.getLast?_singleton]
  rw [if_neg (by norm_num), if_neg (by norm_num), interpSegR, if_pos (Or.inl le_rfl)]
  simp only [lineR, sub_zero, add_zero]
  rw [e49, e1, es, ep, ef]
  norm_num

/-! ### The shipped launch vehicles -/

/-- Masses between 1 kg and 10⁵ kg, `C3` up to 1000 km²/s² in steps of at least 0.1. -/
def spacedCurve : List (ℤ × ℤ) → Bool
  | [] => true
  | p :: rest => decide (|p.1| ≤ 10 ^ 25) && decide (10 ^ 22 ≤ p.2) && decide (p.2 ≤ 10 ^ 27) &&
      rest.all (fun q => decide (p.1 + 10 ^ 21 ≤ q.1)) && spacedCurve rest

theorem curves_spaced : Data.launcherCurves.all (fun c => spacedCurve c.2) = true := by decide +kernel

theorem spacedCurve_spec : ∀ {c : List (ℤ × ℤ)}, spacedCurve c = true →
    (∀ p ∈ c, |p.1| ≤ 10 ^ 25 ∧ 10 ^ 22 ≤ p.2 ∧ p.2 ≤ 10 ^ 27) ∧ c.Pairwise (fun p q => p.1 + 10 ^ 21 ≤ q.1)
  | [], _ => by simp
  | p :: rest, h => by
    simp only [spacedCurve, Bool.and_eq_true, decide_eq_true_eq, List.all_eq_true] at h
    obtain ⟨⟨⟨⟨h1, h2⟩, h3⟩, h4⟩, h5⟩ := h
    obtain ⟨k1, k2⟩ := spacedCurve_spec h5
    refine ⟨fun q hq => ?_, List.pairwise_cons.mpr ⟨h4, k2⟩⟩
    rcases List.mem_cons.mp hq with rfl | hq
    · exact ⟨h1, h2, h3⟩
    · exact k1 q hq

/-- The rows of a shipped file after reading. -/
def readRows (rnd : ℝ → ℝ) (c : List (ℤ × ℤ)) : List (ℝ × ℝ) := (curveRows c).map (fun p => (rnd p.1, rnd p.2))

theorem round_close {rnd : ℝ → ℝ} (hr : RoundsTo binary64 rnd) {x : ℝ} (hx : |x| ≤ 10 ^ 5) :
    |rnd x - x| ≤ 10⁻¹ ^ 9 := by
  obtain ⟨a, b, ha, hb, e⟩ := round_split hr x
  have hη : (2:ℝ) ^ (-1074 : ℤ) ≤ 2 ^ (-100 : ℤ) := zpow_le_zpow_right₀ (by norm_num) (by norm_num)
  have hη2 : (2:ℝ) ^ (-100 : ℤ) ≤ 10⁻¹ ^ 10 := by norm_num
  have h1 : |a - 1| ≤ 2⁻¹ ^ 53 := by
    have := ha.1; have := ha.2
    rw [pow_one] at *
    rw [abs_le]; constructor <;> linarith
  rw [e, show x * a + b - x = x * (a - 1) + b by ring]
  have h2 : |x * (a - 1)| ≤ 10 ^ 5 * 2⁻¹ ^ 53 := by
    rw [abs_mul]; exact mul_le_mul hx h1 (abs_nonneg _) (by norm_num)
  have h3 : (10:ℝ) ^ 5 * 2⁻¹ ^ 53 + 10⁻¹ ^ 10 ≤ 10⁻¹ ^ 9 := by norm_num
  have h4 := (hb.trans hη).trans hη2
  clear hb hη hη2
  exact (abs_add_le _ _).trans (by linarith)

theorem read_table {rnd : ℝ → ℝ} (hr : RoundsTo binary64 rnd) {name : String} {c : List (ℤ × ℤ)}
    (h : (name, c) ∈ Data.launcherCurves) : Spec.DoubleTable (readRows rnd c) ∧
      (∀ p ∈ readRows rnd c, 0.9 ≤ p.2 ∧ p.2 ≤ 100001) ∧
      ∀ p ∈ readRows rnd c, ∀ q ∈ readRows rnd c, p.1 ≤ q.1 → q.2 ≤ p.2 := by
  obtain ⟨hl, -, hdec, -⟩ := shipped_curve h
  obtain ⟨k1, k2⟩ := spacedCurve_spec (List.all_eq_true.mp curves_spaced _ h)
  have h10 : (0:ℝ) < 10 ^ 22 := by norm_num
  have hsize : ∀ p ∈ c, |(p.1 : ℝ) / 10 ^ 22| ≤ 1000 ∧ 1 ≤ (p.2 : ℝ) / 10 ^ 22 ∧ (p.2 : ℝ) / 10 ^ 22 ≤ 10 ^ 5 := by
    intro p hp
    obtain ⟨a1, a2, a3⟩ := k1 p hp
    have b1 : |(p.1 : ℝ)| ≤ 10 ^ 25 := by exact_mod_cast a1
    have b2 : (10:ℝ) ^ 22 ≤ p.2 := by exact_mod_cast a2
    have b3 : (p.2 : ℝ) ≤ 10 ^ 27 := by exact_mod_cast a3
    refine ⟨?_, ?_, ?_⟩
    · rw [abs_div, abs_of_pos h10, div_le_iff₀ h10]; linarith
    · rw [le_div_iff₀ h10]; linarith
    · rw [div_le_iff₀ h10]; linarith
  have mem : ∀ p ∈ readRows rnd c, ∃ q ∈ c, p = (rnd ((q.1 : ℝ) / 10 ^ 22), rnd ((q.2 : ℝ) / 10 ^ 22)) := by
    intro p hp
    unfold readRows curveRows at hp
    rw [List.map_map] at hp
    obtain ⟨q, hq, rfl⟩ := List.mem_map.mp hp
    exact ⟨q, hq, rfl⟩
  have hx : ∀ q ∈ c, |rnd ((q.1 : ℝ) / 10 ^ 22) - (q.1 : ℝ) / 10 ^ 22| ≤ 10⁻¹ ^ 9 :=
    fun q hq => round_close hr ((hsize q hq).1.trans (by norm_num))
  have hy : ∀ q ∈ c, |rnd ((q.2 : ℝ) / 10 ^ 22) - (q.2 : ℝ) / 10 ^ 22| ≤ 10⁻¹ ^ 9 := fun q hq =>
    round_close hr (by rw [abs_of_nonneg (by linarith [(hsize q hq).2.1])]; exact (hsize q hq).2.2)
  have val : ∀ p ∈ readRows rnd c, 0.9 ≤ p.2 ∧ p.2 ≤ 100001 := by
    intro p hp
    obtain ⟨q, hq, rfl⟩ := mem p hp
    obtain ⟨-, s2, s3⟩ := hsize q hq
    obtain ⟨e1, e2⟩ := abs_le.mp (hy q hq)
    norm_num at e1 e2 s3
    constructor <;> norm_num <;> linarith
  have hord : (curveRows c).Pairwise (fun p q => rnd p.1 < rnd q.1) := by
    unfold curveRows
    rw [List.pairwise_map]
    refine List.Pairwise.imp_of_mem ?_ k2
    intro a b ha hb hab
    have : (a.1 : ℝ) + 10 ^ 21 ≤ b.1 := by exact_mod_cast hab
    have h2 : (a.1 : ℝ) / 10 ^ 22 + 10⁻¹ ≤ (b.1 : ℝ) / 10 ^ 22 := by
      rw [div_add' _ _ _ h10.ne', div_le_div_iff_of_pos_right h10]
      norm_num at this ⊢; linarith
    have e1 := (abs_le.mp (hx a ha)).2
    have e2 := (abs_le.mp (hx b hb)).1
    norm_num at e1 e2 h2 ⊢
    linarith
  refine ⟨⟨by unfold readRows; rw [List.length_map]; exact hl, ?_, ?_, ?_, ?_⟩, val, ?_⟩
  · unfold readRows
    rw [List.pairwise_map]
    exact hord.imp (fun h => h.ne)
  · intro p hp
    obtain ⟨q, hq, rfl⟩ := mem p hp
    exact ⟨hr.mem _, hr.mem _⟩
  · intro p hp
    obtain ⟨q, hq, rfl⟩ := mem p hp
    have s1 := abs_le.mp (hsize q hq).1
    have e := abs_le.mp (hx q hq)
    norm_num at e s1
    rw [abs_le]
    norm_num
    constructor <;> linarith
  · intro p hp
    right
    have : (2:ℝ) ^ (-900 : ℤ) ≤ 2 ^ (-1 : ℤ) := zpow_le_zpow_right₀ (by norm_num) (by norm_num)
    rw [zpow_neg_one] at this
    exact this.trans (le_trans (by norm_num) (val p hp).1)
  · intro p hp q hq hpq
    unfold readRows at hp hq
    obtain ⟨a, ha, rfl⟩ := List.mem_map.mp hp
    obtain ⟨b, hb, rfl⟩ := List.mem_map.mp hq
    refine hr.mono ?_
    by_contra hcon
    have hba : b.1 < a.1 := by
      by_contra h3
      exact hcon (hdec a ha b hb (not_lt.mp h3))
    have hne : a ≠ b := by rintro rfl; exact lt_irrefl _ hba
    have h4 := hr.mono hba.le
    have h5 : rnd a.1 = rnd b.1 := le_antisymm hpq h4
    have : Std.Symm (fun p q : ℝ × ℝ => rnd p.1 ≠ rnd q.1) := ⟨fun _ _ h => Ne.symm h⟩
    have hd := List.Pairwise.imp (S := fun p q : ℝ × ℝ => rnd p.1 ≠ rnd q.1) (fun h => ne_of_lt h) hord
    exact hd.forall ha hb hne h5

/-- C118: launch masses of the shipped launch vehicles in double precision.  Within the published range they are positive and
within 2⁻³³ kg of linear interpolation between the rows as read; with more launch energy they do not grow by more than 2⁻³² kg;
outside the range they are zero. -/
theorem C118_shipped_launchers {rnd : ℝ → ℝ} (hr : RoundsTo binary64 rnd) (k : LinearCode) (name : String)
    (c : List (ℤ × ℤ)) (h : (name, c) ∈ Data.launcherCurves) (C : ℝ) (hC : C ∈ binary64) :
    ((∀ p ∈ readRows rnd c, C < p.1) ∨ (∀ p ∈ readRows rnd c, p.1 < C) → launchMassR rnd k (curveRows c) C = .ok 0) ∧
    ((∃ p ∈ readRows rnd c, p.1 ≤ C) → (∃ p ∈ readRows rnd c, C ≤ p.1) → ∃ m m', launchMassR rnd k (curveRows c) C = .ok m ∧
      launchMass (readRows rnd c) C = .ok m' ∧ 0 < m ∧ |m - m'| ≤ 2⁻¹ ^ 33 ∧
      ∀ D ∈ binary64, C ≤ D → (∃ p ∈ readRows rnd c, D ≤ p.1) → ∃ n, launchMassR rnd k (curveRows c) D = .ok n ∧
        n ≤ m + 2⁻¹ ^ 32) := by
  obtain ⟨hT, hv, hdec⟩ := read_table hr h
  have hlm : ∀ f, interp1dR rnd k (readRows rnd c) 0 0 = .ok f → ∀ x, launchMassR rnd k (curveRows c) x = .ok (f x) := by
    intro f hf x
    unfold launchMassR
    change (do let f ← interp1dR rnd k (readRows rnd c) 0 0; Except.ok (f x)) = _
    rw [hf]; rfl
  constructor
  · intro hout
    obtain ⟨f, hf, ho⟩ := C118_outside rnd k (readRows rnd c) hT.rows 0 0
    rw [hlm f hf]
    rcases hout with h | h
    · rw [(ho C).1 h]
    · rw [(ho C).2 h]
  · intro h1 h2
    obtain ⟨f, fR, hf, hfR, acc⟩ := C118_lookup_accurate hr k (readRows rnd c) hT 0 0
    obtain ⟨fR', hfR', pos⟩ := C118_stays_positive hr k (readRows rnd c) hT 0 0 100001 (fun p hp => by
      have := (hv p hp).1; norm_num at this ⊢; linarith) (fun p hp => (hv p hp).2) (fun p q hN => by
        have a := hv p hN.left
        have b := hv q hN.right
        norm_num at a b ⊢
        constructor <;> linarith)
    obtain ⟨fR'', hfR'', fall⟩ := C118_falls hr k (readRows rnd c) hT 0 0 100001 (fun p hp => (hv p hp).2) hdec
    obtain rfl : fR = fR' := by rw [hfR] at hfR'; exact Except.ok.inj hfR'
    obtain rfl : fR = fR'' := by rw [hfR] at hfR''; exact Except.ok.inj hfR''
    obtain ⟨p, q, hN, -, -, e⟩ := acc C hC h1 h2
    refine ⟨fR C, f C, hlm fR hfR C, ?_, (pos C hC h1 h2).1, ?_, ?_⟩
    · unfold launchMass launcherInit
      rw [hf]; rfl
    · refine e.trans ?_
      have : max p.2 q.2 ≤ 100001 := max_le (hv p hN.left).2 (hv q hN.right).2
      have : (2⁻¹:ℝ) ^ 50 * max p.2 q.2 ≤ 2⁻¹ ^ 50 * 100001 := mul_le_mul_of_nonneg_left this (by norm_num)
      exact this.trans (by norm_num)
    · intro D hD hCD h3
      refine ⟨fR D, hlm fR hfR D, (fall C hC D hD hCD h1 h3).trans ?_⟩
      have : (2⁻¹:ℝ) ^ 49 * 100001 ≤ 2⁻¹ ^ 32 := by norm_num
      linarith

/-- Case for `C118_shipped_launchers`, and through it for `C118_lookup_accurate`, `C118_stays_positive` and `C118_falls`:
Atlas V 551 at `C3 = 30.5`, between two rows, and at 101, outside. -/
theorem C118_atlas_case : ∃ rnd, RoundsTo binary64 rnd ∧ ∃ m, launchMassR rnd .numpy (curveRows Data.atlasV551) 30.5 = .ok m ∧
    0 < m ∧ launchMassR rnd .numpy (curveRows Data.atlasV551) 101 = .ok 0 := by
  obtain ⟨rnd, hr⟩ := exists_roundsTo
  have hm : ("atlas-v551.csv", Data.atlasV551) ∈ Data.launcherCurves := by simp [Data.launcherCurves]
  have hall : ∀ q ∈ Data.atlasV551, q.1 ≤ (1000000000000000000000000:ℤ) := by decide +kernel
  have h30 : ∃ q ∈ Data.atlasV551, q.1 = (300000000000000000000000:ℤ) := by decide +kernel
  have h31 : ∃ q ∈ Data.atlasV551, q.1 = (310000000000000000000000:ℤ) := by decide +kernel
  have r30 : rnd 30 = 30 := hr.eq_self ⟨30, 0, by norm_num, by norm_num, by norm_num⟩
  have r31 : rnd 31 = 31 := hr.eq_self ⟨31, 0, by norm_num, by norm_num, by norm_num⟩
  have r100 : rnd 100 = 100 := hr.eq_self ⟨100, 0, by norm_num, by norm_num, by norm_num⟩
  have row : ∀ q ∈ Data.atlasV551, (rnd ((q.1 : ℝ) / 10 ^ 22), rnd ((q.2 : ℝ) / 10 ^ 22)) ∈ readRows rnd Data.atlasV551 := by
    intro q hq
    unfold readRows curveRows
    rw [List.map_map]
    exact List.mem_map.mpr ⟨q, hq, rfl⟩
  obtain ⟨-, hin⟩ := C118_shipped_launchers hr .numpy _ _ hm 30.5 ⟨61, -1, by norm_num, by norm_num, by norm_num⟩
  obtain ⟨hout, -⟩ := C118_shipped_launchers hr .numpy _ _ hm 101 ⟨101, 0, by norm_num, by norm_num, by norm_num⟩
  obtain ⟨a, ha, ea⟩ := h30
  obtain ⟨b, hb, eb⟩ := h31
  obtain ⟨m, -, h1, -, h2, -⟩ := hin ⟨_, row a ha, by rw [ea]; norm_num; rw [r30]; norm_num⟩
    ⟨_, row b hb, by rw [eb]; norm_num; rw [r31]; norm_num⟩
  refine ⟨rnd, hr, m, h1, h2, hout (Or.inr ?_)⟩
  intro p hp
  unfold readRows curveRows at hp
  rw [List.map_map] at hp
  obtain ⟨q, hq, rfl⟩ := List.mem_map.mp hp
  have h3 : (q.1 : ℝ) / 10 ^ 22 ≤ 100 := by
    have : (q.1 : ℝ) ≤ (1000000000000000000000000:ℤ) := by exact_mod_cast hall q hq
    rw [div_le_iff₀ (by norm_num)]
    norm_num at this ⊢
    linarith
  have := hr.mono h3
  rw [r100] at this
  simp only [Function.comp]
  linarith

/-- Case for `C118_rows_exact` and `C118_outside`: the table of `C118_scipy_not_exact`. -/
example : Spec.DoubleTable [(0, 0), (49, 1)] := by
  refine ⟨by simp, by simp, ?_, ?_, ?_⟩
  · intro p hp
    simp only [List.mem_cons, List.not_mem_nil, or_false] at hp
    rcases hp with rfl | rfl
    · exact ⟨zero_mem_binary64, zero_mem_binary64⟩
    · exact ⟨⟨49, 0, by norm_num, by norm_num, by norm_num⟩, one_mem_binary64⟩
  · intro p hp
    simp only [List.mem_cons, List.not_mem_nil, or_false] at hp
    rcases hp with rfl | rfl <;> norm_num
  · intro p hp
    simp only [List.mem_cons, List.not_mem_nil, or_false] at hp
    rcases hp with rfl | rfl
    · left; rfl
    · right
      have : (2:ℝ) ^ (-900 : ℤ) ≤ 2 ^ (0 : ℤ) := zpow_le_zpow_right₀ (by norm_num) (by norm_num)
      rwa [zpow_zero] at this

end AMAT.Props
