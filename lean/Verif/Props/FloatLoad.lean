import Mathlib.Tactic.Linarith
import Mathlib.Tactic.Positivity
import Mathlib.Tactic.IntervalCases
import Verif.Model.FloatLoad
import Verif.Lemmas.FloatGrid
import Verif.Lemmas.Trapz
import Verif.Spec.Trapz

/-
C114: heat loads and data volumes in double precision.
-/

noncomputable section

namespace AMAT.Props

open AMAT

/-- Without rounding these are the sums of `Verif/Model/Numpy.lean`. -/
theorem cumTrapzR_id (l : List (ℝ × ℝ)) (mode : ScipyMode) : cumTrapzR id l = cumTrapz mode l 0 := by
  have h : ∀ (l : List (ℝ × ℝ)) (acc : ℝ), trapzFromR id acc l = trapzFrom acc l := by
    intro l
    induction l with
    | nil => intro acc; rfl
    | cons p r ih =>
        intro acc
        cases r with
        | nil => rfl
        | cons q r =>
            simp only [trapzFromR, trapzFrom, trapzIncR, id, add_comm q.2 p.2]
            rw [ih]
  cases l with
  | nil => rfl
  | cons p r => simp [cumTrapzR, cumTrapz, h]

theorem zero_mem_binary64 : (0:ℝ) ∈ binary64 := ⟨0, 0, by norm_num, by norm_num, by simp⟩

/-- Rounding loses a relative 2⁻⁵³, or half the smallest double. -/
theorem round_any {rnd : ℝ → ℝ} (hr : RoundsTo binary64 rnd) {x : ℝ} (hx : 0 ≤ x) :
    (1 - 2⁻¹ ^ 53) * x - (2:ℝ) ^ (-1075 : ℤ) ≤ rnd x ∧ rnd x ≤ (1 + 2⁻¹ ^ 53) * x + (2:ℝ) ^ (-1075 : ℤ) := by
  have hη := binary64.two_zpow_pos (-1075)
  rcases le_or_gt ((2:ℝ) ^ (-1022 : ℤ)) x with h | h
  · have e := binary64.rel_error hr (x := x) (by rwa [abs_of_nonneg hx])
    rw [abs_of_nonneg hx] at e
    obtain ⟨e1, e2⟩ := abs_le.mp e
    constructor <;> linarith
  · set s : ℝ := (2:ℝ) ^ (-1074 : ℤ) with hs
    have hsp : 0 < s := binary64.two_zpow_pos _
    have h22 : (2:ℝ) ^ (-1022 : ℤ) = 2 ^ 52 * s := by
      rw [hs, show (-1022:ℤ) = 52 + (-1074) by norm_num, binary64.two_zpow_add]; norm_cast
    have h75 : s = 2 * (2:ℝ) ^ (-1075 : ℤ) := by
      rw [hs, show (-1074:ℤ) = 1 + (-1075) by norm_num, binary64.two_zpow_add, zpow_one]
    have h1 : |x / s| < 2 ^ 52 := by
      rw [abs_div, abs_of_pos hsp, div_lt_iff₀ hsp, ← h22, abs_of_nonneg hx]; exact h
    have h2 := abs_sub_round (x / s)
    have hmem : ((round (x / s) : ℤ) : ℝ) * s ∈ binary64 := by
      refine binary64.grid_mem ?_ (by norm_num)
      have h3 : |((round (x / s) : ℤ) : ℝ)| < 2 ^ 52 + 1 := by
        have := abs_sub_abs_le_abs_sub ((round (x / s) : ℤ) : ℝ) (x / s)
        rw [abs_sub_comm] at this
        linarith
      have h4 : |round (x / s)| < 2 ^ 52 + 1 := by exact_mod_cast h3
      omega
    have h5 := hr.nearest x _ hmem
    have h6 : |x - ((round (x / s) : ℤ) : ℝ) * s| = |x / s - round (x / s)| * s := by
      rw [← abs_of_pos hsp, ← abs_mul, abs_of_pos hsp]
      congr 1
      field_simp
    have h7 : |x - rnd x| ≤ (2:ℝ) ^ (-1075 : ℤ) := by
      rw [h6] at h5
      nlinarith
    obtain ⟨e1, e2⟩ := abs_le.mp h7
    have : 0 ≤ (2⁻¹:ℝ) ^ 53 * x := mul_nonneg (by norm_num) hx
    constructor <;> linarith

/-- Sums of doubles never underflow. -/
theorem round_add {rnd : ℝ → ℝ} (hr : RoundsTo binary64 rnd) {x y : ℝ} (hx : x ∈ binary64) (hy : y ∈ binary64)
    (h0 : 0 ≤ x + y) : (1 - 2⁻¹ ^ 53) * (x + y) ≤ rnd (x + y) ∧ rnd (x + y) ≤ (1 + 2⁻¹ ^ 53) * (x + y) := by
  rcases le_or_gt ((2:ℝ) ^ (-1022 : ℤ)) (x + y) with h | h
  · have e := binary64.rel_error hr (x := x + y) (by rwa [abs_of_nonneg h0])
    rw [abs_of_nonneg h0] at e
    obtain ⟨e1, e2⟩ := abs_le.mp e
    constructor <;> linarith
  · obtain ⟨k, rfl⟩ := binary64.multiple hx
    obtain ⟨l, rfl⟩ := binary64.multiple hy
    rw [← add_mul] at *
    set s : ℝ := (2:ℝ) ^ (-1074 : ℤ) with hs
    have hsp : 0 < s := binary64.two_zpow_pos _
    have h22 : (2:ℝ) ^ (-1022 : ℤ) = 2 ^ 52 * s := by
      rw [hs, show (-1022:ℤ) = 52 + (-1074) by norm_num, binary64.two_zpow_add]; norm_cast
    have hk : ((k:ℝ) + l) < 2 ^ 52 := by rw [h22] at h; exact lt_of_mul_lt_mul_right h hsp.le
    have hk0 : (0:ℝ) ≤ (k:ℝ) + l := nonneg_of_mul_nonneg_left h0 hsp
    have hk' : k + l < 2 ^ 52 := by exact_mod_cast hk
    have hk0' : 0 ≤ k + l := by exact_mod_cast hk0
    have hmem : (((k + l : ℤ)) : ℝ) * s ∈ binary64 := binary64.grid_mem (by rw [abs_of_nonneg hk0']; omega) (by norm_num)
    push_cast at hmem
    rw [hr.eq_self hmem]
    have : 0 ≤ (2⁻¹:ℝ) ^ 53 * (((k:ℝ) + l) * s) := mul_nonneg (by norm_num) h0
    constructor <;> linarith

theorem trapzIncR_nonneg {rnd : ℝ → ℝ} (hr : RoundsTo binary64 rnd) {p q : ℝ × ℝ} (ht : p.1 ≤ q.1) (hp : 0 ≤ p.2)
    (hq : 0 ≤ q.2) : 0 ≤ trapzIncR rnd p q := by
  have z := zero_mem_binary64
  have h1 := hr.ge_of_ge (x := q.1 - p.1) z (by linarith)
  have h2 := hr.ge_of_ge (x := q.2 + p.2) z (by linarith)
  have h3 := hr.ge_of_ge z (mul_nonneg h1 h2)
  exact hr.ge_of_ge z (by linarith)

theorem trapzIncR_bounds {rnd : ℝ → ℝ} (hr : RoundsTo binary64 rnd) {p q : ℝ × ℝ} (hp1 : p.1 ∈ binary64)
    (hq1 : q.1 ∈ binary64) (hp2 : p.2 ∈ binary64) (hq2 : q.2 ∈ binary64) (ht : p.1 ≤ q.1) (hp : 0 ≤ p.2) (hq : 0 ≤ q.2) :
    (1 - 2⁻¹ ^ 53) ^ 4 * ((q.1 - p.1) * (p.2 + q.2) / 2) - 2 * (2:ℝ) ^ (-1075 : ℤ) ≤ trapzIncR rnd p q ∧
    trapzIncR rnd p q ≤ (1 + 2⁻¹ ^ 53) ^ 4 * ((q.1 - p.1) * (p.2 + q.2) / 2) + 2 * (2:ℝ) ^ (-1075 : ℤ) := by
  have z := zero_mem_binary64
  have h1 := hr.ge_of_ge (x := q.1 - p.1) z (by linarith)
  have h2 := hr.ge_of_ge (x := q.2 + p.2) z (by linarith)
  have h3 := hr.ge_of_ge z (mul_nonneg h1 h2)
  obtain ⟨a1, a2⟩ := round_add hr hq1 (binary64.neg_mem hp1) (by linarith)
  rw [← sub_eq_add_neg] at a1 a2
  obtain ⟨b1, b2⟩ := round_add hr hq2 hp2 (by linarith)
  obtain ⟨c1, c2⟩ := round_any hr (mul_nonneg h1 h2)
  obtain ⟨d1, d2⟩ := round_any hr (x := rnd (rnd (q.1 - p.1) * rnd (q.2 + p.2)) / 2) (by linarith)
  unfold trapzIncR
  have hd : 0 ≤ q.1 - p.1 := by linarith
  have hs : 0 ≤ q.2 + p.2 := by linarith
  have hη := binary64.two_zpow_pos (-1075)
  generalize (2:ℝ) ^ (-1075 : ℤ) = η at *
  rw [add_comm p.2 q.2]
  generalize q.1 - p.1 = d at *
  generalize q.2 + p.2 = s at *
  generalize rnd (rnd (rnd d * rnd s) / 2) = i at *
  generalize rnd (rnd d * rnd s) = m at *
  generalize rnd d = d' at *
  generalize rnd s = s' at *
  have hu : (2⁻¹:ℝ) ^ 53 ≤ 1 / 2 := by norm_num
  have hu0 : (0:ℝ) < (2⁻¹:ℝ) ^ 53 := by positivity
  generalize (2⁻¹:ℝ) ^ 53 = u at *
  have hl : 0 ≤ 1 - u := by linarith
  have m1 : (1 - u) * d * ((1 - u) * s) ≤ d' * s' := by gcongr
  have m2 : d' * s' ≤ (1 + u) * d * ((1 + u) * s) := by gcongr
  have n1 : (1 - u) * ((1 - u) * d * ((1 - u) * s)) ≤ (1 - u) * (d' * s') := by gcongr
  have n2 : (1 + u) * (d' * s') ≤ (1 + u) * ((1 + u) * d * ((1 + u) * s)) := by gcongr
  have o1 : (1 - u) * ((1 - u) * ((1 - u) * d * ((1 - u) * s)) - η) ≤ (1 - u) * m := by gcongr; linarith
  have o2 : (1 + u) * m ≤ (1 + u) * ((1 + u) * ((1 + u) * d * ((1 + u) * s)) + η) := by gcongr; linarith
  have r1 : u * η ≤ 1 / 2 * η := by gcongr
  have r0 : 0 ≤ u * η := by positivity
  constructor
  · calc (1 - u) ^ 4 * (d * s / 2) - 2 * η = (1 - u) * ((1 - u) * ((1 - u) * d * ((1 - u) * s)) - η) / 2
          + (1 - u) * η / 2 - 2 * η := by ring
      _ ≤ i := by linarith
  · calc i ≤ (1 + u) * ((1 + u) * ((1 + u) * d * ((1 + u) * s)) + η) / 2 + η := by linarith
      _ = (1 + u) ^ 4 * (d * s / 2) + (1 + u) * η / 2 + η := by ring
      _ ≤ _ := by linarith

/-- The running sums never decrease and stay doubles. -/
theorem trapzFromR_chain {rnd : ℝ → ℝ} (hr : RoundsTo binary64 rnd) : ∀ (l : List (ℝ × ℝ)) (acc : ℝ), acc ∈ binary64 →
    l.Pairwise (fun p q => p.1 ≤ q.1) → (∀ p ∈ l, 0 ≤ p.2) →
    (∀ x ∈ trapzFromR rnd acc l, acc ≤ x ∧ x ∈ binary64) ∧ (trapzFromR rnd acc l).Pairwise (· ≤ ·) := by
  intro l
  induction l with
  | nil => intro acc _ _ _; simp [trapzFromR]
  | cons p r ih =>
      intro acc ha ht hy
      cases r with
      | nil => simp [trapzFromR]
      | cons q r =>
          simp only [trapzFromR]
          have hi := trapzIncR_nonneg hr (p := p) (q := q) ((List.pairwise_cons.mp ht).1 q (by simp)) (hy p (by simp))
            (hy q (by simp))
          have hle : acc ≤ rnd (acc + trapzIncR rnd p q) := hr.ge_of_ge ha (by linarith)
          obtain ⟨h1, h2⟩ := ih (rnd (acc + trapzIncR rnd p q)) (hr.mem _) (List.pairwise_cons.mp ht).2
            (fun x hx => hy x (List.mem_cons_of_mem _ hx))
          refine ⟨?_, List.pairwise_cons.mpr ⟨fun x hx => (h1 x hx).1, h2⟩⟩
          intro x hx
          rcases List.mem_cons.mp hx with rfl | hx
          · exact ⟨hle, hr.mem _⟩
          · exact ⟨hle.trans (h1 x hx).1, (h1 x hx).2⟩

/-- **C114**, order.  In doubles too, whatever the rounding of ties, a load integrated over non-decreasing times and
non-negative rates starts from zero, has one value per sample, and never decreases. -/
theorem C114_load_never_decreases {rnd : ℝ → ℝ} (hr : RoundsTo binary64 rnd) (l : List (ℝ × ℝ)) (hl : l ≠ [])
    (ht : l.Pairwise (fun p q => p.1 ≤ q.1)) (hy : ∀ p ∈ l, 0 ≤ p.2) :
    ∃ out, cumTrapzR rnd l = .ok out ∧ out.length = l.length ∧ out[0]? = some 0 ∧ out.Pairwise (· ≤ ·) ∧
      ∀ x ∈ out, 0 ≤ x ∧ x ∈ binary64 := by
  obtain ⟨h1, h2⟩ := trapzFromR_chain hr l 0 zero_mem_binary64 ht hy
  refine ⟨0 :: trapzFromR rnd 0 l, ?_, ?_, rfl, List.pairwise_cons.mpr ⟨fun x hx => (h1 x hx).1, h2⟩, ?_⟩
  · cases l with
    | nil => exact absurd rfl hl
    | cons p r => rfl
  · have : ∀ (l : List (ℝ × ℝ)) (acc : ℝ), (trapzFromR rnd acc l).length = l.length - 1 := by
      intro l
      induction l with
      | nil => intro acc; rfl
      | cons p r ih =>
          intro acc
          cases r with
          | nil => rfl
          | cons q r => simp [trapzFromR, ih]
    rw [List.length_cons, this]
    have := List.length_pos_iff.mpr hl
    omega
  · intro x hx
    rcases List.mem_cons.mp hx with rfl | hx
    · exact ⟨le_refl _, zero_mem_binary64⟩
    · exact h1 x hx

theorem trapzFromR_bounds {rnd : ℝ → ℝ} (hr : RoundsTo binary64 rnd) : ∀ (l : List (ℝ × ℝ)) (acc A : ℝ) (j : ℕ),
    acc ∈ binary64 → 0 ≤ acc → 0 ≤ A → l.Pairwise (fun p q => p.1 ≤ q.1) →
    (∀ p ∈ l, 0 ≤ p.2 ∧ p.1 ∈ binary64 ∧ p.2 ∈ binary64) →
    (1 - 2⁻¹ ^ 53) ^ (j + 4) * A - 2 * j * (2:ℝ) ^ (-1075 : ℤ) ≤ acc →
    acc ≤ (1 + 2⁻¹ ^ 53) ^ (j + 4) * (A + 2 * j * (2:ℝ) ^ (-1075 : ℤ)) →
    ∀ (i : ℕ) (x : ℝ), (trapzFromR rnd acc l)[i]? = some x →
      (1 - 2⁻¹ ^ 53) ^ (j + i + 1 + 4) * (A + Spec.trapz (l.take (i + 2)))
        - 2 * ((j + i + 1 : ℕ) : ℝ) * (2:ℝ) ^ (-1075 : ℤ) ≤ x ∧
      x ≤ (1 + 2⁻¹ ^ 53) ^ (j + i + 1 + 4) * (A + Spec.trapz (l.take (i + 2))
        + 2 * ((j + i + 1 : ℕ) : ℝ) * (2:ℝ) ^ (-1075 : ℤ)) := by
  intro l
  induction l with
  | nil => intro acc A j _ _ _ _ _ _ _ i x hx; simp [trapzFromR] at hx
  | cons p r ih =>
      intro acc A j ha ha0 hA ht hy hlo hhi i x hx
      cases r with
      | nil => simp [trapzFromR] at hx
      | cons q r =>
          simp only [trapzFromR] at hx
          have hpq := (List.pairwise_cons.mp ht).1 q (by simp)
          obtain ⟨p0, p1, p2⟩ := hy p (by simp)
          obtain ⟨q0, q1, q2⟩ := hy q (by simp)
          have hi := trapzIncR_nonneg hr hpq p0 q0
          obtain ⟨b1, b2⟩ := trapzIncR_bounds hr p1 q1 p2 q2 hpq p0 q0
          have him : trapzIncR rnd p q ∈ binary64 := hr.mem _
          have hacc0 : 0 ≤ acc + trapzIncR rnd p q := by linarith
          obtain ⟨c1, c2⟩ := round_add hr ha him hacc0
          have hr0 := hr.ge_of_ge zero_mem_binary64 hacc0
          have hinc : 0 ≤ (q.1 - p.1) * (p.2 + q.2) / 2 := by
            have : 0 ≤ q.1 - p.1 := by linarith
            positivity
          have key : (1 - 2⁻¹ ^ 53) ^ (j + 1 + 4) * (A + (q.1 - p.1) * (p.2 + q.2) / 2)
                - 2 * ((j + 1 : ℕ) : ℝ) * (2:ℝ) ^ (-1075 : ℤ) ≤ rnd (acc + trapzIncR rnd p q) ∧
              rnd (acc + trapzIncR rnd p q) ≤ (1 + 2⁻¹ ^ 53) ^ (j + 1 + 4) * (A + (q.1 - p.1) * (p.2 + q.2) / 2
                + 2 * ((j + 1 : ℕ) : ℝ) * (2:ℝ) ^ (-1075 : ℤ)) := by
            have hη := binary64.two_zpow_pos (-1075)
            generalize (2:ℝ) ^ (-1075 : ℤ) = η at *
            generalize (q.1 - p.1) * (p.2 + q.2) / 2 = c at *
            generalize trapzIncR rnd p q = c' at *
            generalize rnd (acc + c') = acc' at *
            have hu : (2⁻¹:ℝ) ^ 53 ≤ 1 / 2 := by norm_num
            have hu0 : (0:ℝ) < (2⁻¹:ℝ) ^ 53 := by positivity
            generalize (2⁻¹:ℝ) ^ 53 = u at *
            have hl : 0 ≤ 1 - u := by linarith
            have hM : 1 ≤ 1 + u := by linarith
            have k1 : (1 - u) ^ (j + 4) ≤ (1 - u) ^ 4 := pow_le_pow_of_le_one hl (by linarith) (by omega)
            have k2 : (1 + u) ^ 4 ≤ (1 + u) ^ (j + 4) := pow_le_pow_right₀ hM (by omega)
            have k3 : 1 ≤ (1 + u) ^ (j + 4) := one_le_pow₀ hM
            constructor
            · have e1 : (1 - u) ^ (j + 4) * (A + c) - 2 * (j:ℝ) * η - 2 * η ≤ acc + c' := by
                have : (1 - u) ^ (j + 4) * c ≤ (1 - u) ^ 4 * c := by gcongr
                linarith
              have e2 : (1 - u) * ((1 - u) ^ (j + 4) * (A + c) - 2 * (j:ℝ) * η - 2 * η) ≤ (1 - u) * (acc + c') := by gcongr
              have e3 : 0 ≤ u * (2 * (j:ℝ) * η + 2 * η) := by positivity
              push_cast
              calc (1 - u) ^ (j + 1 + 4) * (A + c) - 2 * ((j:ℝ) + 1) * η
                  = (1 - u) * ((1 - u) ^ (j + 4) * (A + c) - 2 * (j:ℝ) * η - 2 * η)
                    - u * (2 * (j:ℝ) * η + 2 * η) := by ring
                _ ≤ acc' := by linarith
            · have e1 : acc + c' ≤ (1 + u) ^ (j + 4) * (A + c + 2 * (j:ℝ) * η + 2 * η) := by
                have h1 : (1 + u) ^ 4 * c ≤ (1 + u) ^ (j + 4) * c := by gcongr
                have h2 : 1 * (2 * η) ≤ (1 + u) ^ (j + 4) * (2 * η) := by gcongr
                have : (1 + u) ^ (j + 4) * (A + c + 2 * (j:ℝ) * η + 2 * η) = (1 + u) ^ (j + 4) * (A + 2 * (j:ℝ) * η)
                  + (1 + u) ^ (j + 4) * c + (1 + u) ^ (j + 4) * (2 * η) := by ring
                linarith
              have e2 : (1 + u) * (acc + c') ≤ (1 + u) * ((1 + u) ^ (j + 4) * (A + c + 2 * (j:ℝ) * η + 2 * η)) := by gcongr
              push_cast
              calc acc' ≤ (1 + u) * ((1 + u) ^ (j + 4) * (A + c + 2 * (j:ℝ) * η + 2 * η)) := by linarith
                _ = _ := by ring
          cases i with
          | zero =>
              simp only [List.getElem?_cons_zero, Option.some.injEq] at hx
              subst hx
              simpa [Spec.trapz] using key
          | succ i =>
              rw [List.getElem?_cons_succ] at hx
              have := ih (rnd (acc + trapzIncR rnd p q)) (A + (q.1 - p.1) * (p.2 + q.2) / 2) (j + 1) (hr.mem _) hr0
                (by linarith) (List.pairwise_cons.mp ht).2 (fun x hx => hy x (List.mem_cons_of_mem _ hx)) key.1 key.2 i x hx
              have e : Spec.trapz ((p :: q :: r).take (i + 1 + 2))
                  = (q.1 - p.1) * (p.2 + q.2) / 2 + Spec.trapz ((q :: r).take (i + 2)) := by
                simp [Spec.trapz]
              rw [e, ← add_assoc A, show j + (i + 1) + 1 = j + 1 + i + 1 by ring]
              exact this

/-- **C114**, accuracy.  The `k`-th value is the exact trapezoidal integral of the first `k + 1` samples up to a relative
`2(k+4)·2⁻⁵³` (and `2k` times the smallest double, should increments underflow). -/
theorem C114_load_accurate {rnd : ℝ → ℝ} (hr : RoundsTo binary64 rnd) (l : List (ℝ × ℝ))
    (ht : l.Pairwise (fun p q => p.1 ≤ q.1)) (hy : ∀ p ∈ l, 0 ≤ p.2 ∧ p.1 ∈ binary64 ∧ p.2 ∈ binary64)
    (out : List ℝ) (ho : cumTrapzR rnd l = .ok out) (k : ℕ) (hk : k + 4 ≤ 2 ^ 52) (x : ℝ) (hx : out[k]? = some x) :
    |x - Spec.trapz (l.take (k + 1))| ≤
      2 * (k + 4) * 2⁻¹ ^ 53 * Spec.trapz (l.take (k + 1)) + k * (2:ℝ) ^ (-1073 : ℤ) := by
  have ho' : out = 0 :: trapzFromR rnd 0 l := by
    cases l with
    | nil => simp [cumTrapzR] at ho
    | cons p r => simpa [cumTrapzR] using ho.symm
  subst ho'
  have hη := binary64.two_zpow_pos (-1075)
  have h73 : (2:ℝ) ^ (-1073 : ℤ) = 4 * (2:ℝ) ^ (-1075 : ℤ) := by
    rw [show (-1073:ℤ) = 2 + (-1075) by norm_num, binary64.two_zpow_add]; norm_num
  have hT : 0 ≤ Spec.trapz (l.take (k + 1)) :=
    trapz_nonneg (ht.sublist (List.take_sublist _ _)) (fun p hp => (hy p (List.mem_of_mem_take hp)).1)
  cases k with
  | zero =>
      simp only [List.getElem?_cons_zero, Option.some.injEq] at hx
      subst hx
      have : Spec.trapz (l.take (0 + 1)) = 0 := by
        cases l with
        | nil => rfl
        | cons p r => simp [Spec.trapz]
      rw [this]; simp
  | succ i =>
      rw [List.getElem?_cons_succ] at hx
      have := trapzFromR_bounds hr l 0 0 0 zero_mem_binary64 le_rfl le_rfl ht hy (by simp) (by simp) i x hx
      simp only [zero_add] at this
      rw [h73]
      have hk' : ((i + 1 + 4 : ℕ) : ℝ) ≤ 2 ^ 52 := by exact_mod_cast hk
      generalize (2:ℝ) ^ (-1075 : ℤ) = η at *
      generalize Spec.trapz (l.take (i + 2)) = T at *
      obtain ⟨b1, b2⟩ := this
      have hu : (2⁻¹:ℝ) ^ 53 * 2 ^ 52 = 1 / 2 := by norm_num
      have hu0 : (0:ℝ) < (2⁻¹:ℝ) ^ 53 := by positivity
      have hu1 : (2⁻¹:ℝ) ^ 53 ≤ 1 := by norm_num
      generalize (2⁻¹:ℝ) ^ 53 = u at *
      have hn : ((i + 1 + 4 : ℕ) : ℝ) * u ≤ 1 / 2 := by
        calc ((i + 1 + 4 : ℕ) : ℝ) * u ≤ 2 ^ 52 * u := by gcongr
          _ = 1 / 2 := by rw [mul_comm, hu]
      have up : ∀ n : ℕ, (n : ℝ) * u ≤ 1 / 2 → (1 + u) ^ n ≤ 1 + 2 * n * u := by
        intro n
        induction n with
        | zero => intro _; simp
        | succ n ih =>
            intro h
            push_cast at h ⊢
            have hnu : (n : ℝ) * u ≤ 1 / 2 := by linarith
            have := ih hnu
            have h1 : (1 + u) ^ n * (1 + u) ≤ (1 + 2 * n * u) * (1 + u) := by gcongr
            have h2 : (n : ℝ) * u * u ≤ 1 / 2 * u := by gcongr
            rw [pow_succ]
            linarith
      have lo : 1 - ((i + 1 + 4 : ℕ) : ℝ) * u ≤ (1 - u) ^ (i + 1 + 4) := by
        have := one_add_mul_le_pow (a := -u) (by linarith) (i + 1 + 4)
        rw [← sub_eq_add_neg] at this
        linarith
      have up' := up _ hn
      have l1 : (1 - ((i + 1 + 4 : ℕ) : ℝ) * u) * T ≤ (1 - u) ^ (i + 1 + 4) * T := by gcongr
      have hm0 : 0 ≤ 2 * ((i + 1 : ℕ) : ℝ) * η := by positivity
      have u1 : (1 + u) ^ (i + 1 + 4) * (T + 2 * ((i + 1 : ℕ) : ℝ) * η)
          ≤ (1 + 2 * ((i + 1 + 4 : ℕ) : ℝ) * u) * (T + 2 * ((i + 1 : ℕ) : ℝ) * η) := by gcongr
      have u2 : 2 * ((i + 1 + 4 : ℕ) : ℝ) * u * (2 * ((i + 1 : ℕ) : ℝ) * η) ≤ 1 * (2 * ((i + 1 : ℕ) : ℝ) * η) := by
        gcongr; linarith
      have nn : 0 ≤ ((i + 1 + 4 : ℕ) : ℝ) * u * T := by positivity
      have ec : (2:ℝ) * (((i + 1 : ℕ) : ℝ) + 4) * u * T = 2 * (((i + 1 + 4 : ℕ) : ℝ) * u * T) := by push_cast; ring
      rw [ec, abs_le]
      constructor
      · linarith
      · linarith

/-- The output times of a flight, in doubles, never decrease. -/
theorem timesR_sorted {rnd : ℝ → ℝ} (hr : RoundsTo binary64 rnd) {tau tSec dt : ℝ} (htau : 0 < tau) (hdt : 0 ≤ dt) :
    (timesR rnd tau tSec dt).Pairwise (· ≤ ·) ∧ ∀ t ∈ timesR rnd tau tSec dt, t ∈ binary64 := by
  have hs : 0 ≤ rnd (dt / tau) := hr.ge_of_ge zero_mem_binary64 (by positivity)
  constructor
  · unfold timesR tGridR arangeR
    rw [List.map_map, List.pairwise_map]
    refine List.pairwise_lt_range.imp ?_
    intro i j hij
    refine hr.mono (mul_le_mul_of_nonneg_left (hr.mono (mul_le_mul_of_nonneg_right ?_ hs)) htau.le)
    exact_mod_cast hij.le
  · intro t ht
    obtain ⟨s, _, rfl⟩ := List.mem_map.mp ht
    exact hr.mem _

theorem zip_pairwise {a : List ℝ} (ha : a.Pairwise (· ≤ ·)) (b : List ℝ) :
    (a.zip b).Pairwise (fun p q => p.1 ≤ q.1) := by
  induction a generalizing b with
  | nil => simp
  | cons x a ih =>
      cases b with
      | nil => simp
      | cons y b =>
          obtain ⟨h1, h2⟩ := List.pairwise_cons.mp ha
          exact List.pairwise_cons.mpr ⟨fun p hp => h1 _ (List.of_mem_zip hp).1, ih h2 b⟩

/-- **C114**, flights.  The heat load of a flight whose output times are those computed in doubles (C104) never decreases
and is the exact trapezoidal sum of its rates up to the above error, for any non-negative rates. -/
theorem C114_flight_load {rnd : ℝ → ℝ} (hr : RoundsTo binary64 rnd) (tau tSec dt : ℝ) (htau : 0 < tau) (hdt : 0 ≤ dt)
    (q : List ℝ) (hq : ∀ x ∈ q, 0 ≤ x ∧ x ∈ binary64) (hne : (timesR rnd tau tSec dt).zip q ≠ []) :
    ∃ out, cumTrapzR rnd ((timesR rnd tau tSec dt).zip q) = .ok out ∧ out.Pairwise (· ≤ ·) ∧ (∀ x ∈ out, 0 ≤ x) ∧
      ∀ (k : ℕ) (x : ℝ), k + 4 ≤ 2 ^ 52 → out[k]? = some x →
        |x - Spec.trapz (((timesR rnd tau tSec dt).zip q).take (k + 1))| ≤
          2 * (k + 4) * 2⁻¹ ^ 53 * Spec.trapz (((timesR rnd tau tSec dt).zip q).take (k + 1))
            + k * (2:ℝ) ^ (-1073 : ℤ) := by
  obtain ⟨s1, s2⟩ := timesR_sorted hr (tSec := tSec) htau hdt
  have ht := zip_pairwise s1 q
  have hy : ∀ p ∈ (timesR rnd tau tSec dt).zip q, 0 ≤ p.2 ∧ p.1 ∈ binary64 ∧ p.2 ∈ binary64 := by
    intro p hp
    obtain ⟨h1, h2⟩ := List.of_mem_zip hp
    exact ⟨(hq _ h2).1, s2 _ h1, (hq _ h2).2⟩
  obtain ⟨out, h1, _, _, h2, h3⟩ := C114_load_never_decreases hr _ hne ht (fun p hp => (hy p hp).1)
  exact ⟨out, h1, h2, fun x hx => (h3 x hx).1, fun k x hk hx => C114_load_accurate hr _ ht hy out h1 k hk x hx⟩

theorem int_mem {m : ℤ} (hm : |m| ≤ 2 ^ 53) : (m : ℝ) ∈ binary64 := by
  have := binary64.grid_mem (m := m) (e := 0) hm (by norm_num)
  simpa using this

/-- A term below half the spacing of the doubles is lost in a sum. -/
theorem absorb {rnd : ℝ → ℝ} (hr : RoundsTo binary64 rnd) {j : ℤ} {a b : ℝ} (ha : a ∈ binary64) (hj : (2:ℝ) ^ j ≤ a)
    (hb : 0 ≤ b) (hb2 : 2 * b < (2:ℝ) ^ (j - 52)) : rnd (a + b) = a := by
  by_contra hne
  have ha0 : 0 < a := lt_of_lt_of_le (binary64.two_zpow_pos _) hj
  have h1 : a ≤ rnd (a + b) := hr.ge_of_ge ha (by linarith)
  have h2 := hr.nearest (a + b) a ha
  rw [add_sub_cancel_left, abs_of_nonneg hb] at h2
  have h3 := binary64.gap (j := j) ha (hr.mem (a + b)) (by rwa [abs_of_pos ha0]) (by rw [abs_of_nonneg] <;> linarith)
    (Ne.symm hne)
  rw [abs_of_nonneg (by linarith)] at h3
  have := (abs_le.mp h2).1
  linarith

/-- **C114**, a limit, and a case of the hypotheses.  The load need not grow while the vehicle is heated: after a pulse of
2⁶⁰ W/cm² decaying within a second, a second at 1 W/cm² adds nothing to the load of 2⁵⁹ J/cm². -/
theorem C114_load_can_stall {rnd : ℝ → ℝ} (hr : RoundsTo binary64 rnd) :
    cumTrapzR rnd [(0, 2 ^ 60), (1, 1), (2, 1)] = .ok [0, 2 ^ 59, 2 ^ 59] ∧
    Spec.trapz [(0, 2 ^ 60), (1, 1), (2, 1)] = 2 ^ 59 + 3 / 2 ∧
    ([(0, 2 ^ 60), (1, 1), (2, 1)] : List (ℝ × ℝ)).Pairwise (fun p q => p.1 ≤ q.1) ∧
    ∀ p ∈ ([(0, 2 ^ 60), (1, 1), (2, 1)] : List (ℝ × ℝ)), 0 ≤ p.2 ∧ p.1 ∈ binary64 ∧ p.2 ∈ binary64 := by
  have m1 : (1:ℝ) ∈ binary64 := by simpa using int_mem (m := 1) (by norm_num)
  have m2 : (2:ℝ) ∈ binary64 := by simpa using int_mem (m := 2) (by norm_num)
  have m60 : (2 ^ 60:ℝ) ∈ binary64 := by
    have := binary64.pow_mem (e := 60) (by norm_num)
    exact_mod_cast this
  have m59 : (2 ^ 59:ℝ) ∈ binary64 := by
    have := binary64.pow_mem (e := 59) (by norm_num)
    exact_mod_cast this
  have r1 := hr.eq_self m1
  have r2 := hr.eq_self m2
  have r60 := hr.eq_self m60
  have r59 := hr.eq_self m59
  have a1 : rnd (2 ^ 60 + 1) = 2 ^ 60 := absorb hr (j := 60) m60 (by norm_cast) (by norm_num) (by norm_num)
  have a2 : rnd (2 ^ 59 + 1) = 2 ^ 59 := absorb hr (j := 59) m59 (by norm_cast) (by norm_num) (by norm_num)
  refine ⟨?_, ?_, ?_, ?_⟩
  · have i1 : trapzIncR rnd (0, 2 ^ 60) (1, 1) = 2 ^ 59 := by
      simp only [trapzIncR]
      rw [sub_zero, add_comm (1:ℝ), a1, r1, one_mul, r60, show (2 ^ 60 / 2 : ℝ) = 2 ^ 59 by norm_num, r59]
    have i2 : trapzIncR rnd (1, 1) (2, 1) = 1 := by
      simp only [trapzIncR]
      rw [show (2 - 1 : ℝ) = 1 by norm_num, show (1 + 1 : ℝ) = 2 by norm_num, r1, r2, one_mul, r2,
        show (2 / 2 : ℝ) = 1 by norm_num, r1]
    simp only [cumTrapzR, trapzFromR, i1, i2, zero_add, r59, a2]
  · simp only [Spec.trapz]; norm_num
  · simp
  · intro p hp
    simp only [List.mem_cons, List.not_mem_nil, or_false] at hp
    rcases hp with rfl | rfl | rfl
    · exact ⟨by positivity, zero_mem_binary64, m60⟩
    · exact ⟨by norm_num, m1, m1⟩
    · exact ⟨by norm_num, m2, m1⟩

/-- A case of `C114_flight_load`: three output times one second apart, for any rounding of ties. -/
example {rnd : ℝ → ℝ} (hr : RoundsTo binary64 rnd) : timesR rnd 1 2 1 = [0, 1, 2] ∧
    (timesR rnd 1 2 1).zip [3, 5, 4] ≠ [] ∧ ∀ x ∈ ([3, 5, 4] : List ℝ), 0 ≤ x ∧ x ∈ binary64 := by
  have m : ∀ n : ℤ, |n| ≤ 2 ^ 53 → rnd n = n := fun n hn => hr.eq_self (int_mem hn)
  have r0 : rnd 0 = 0 := by simpa using m 0 (by norm_num)
  have r1 : rnd 1 = 1 := by simpa using m 1 (by norm_num)
  have r2 : rnd 2 = 2 := by simpa using m 2 (by norm_num)
  have r3 : rnd 3 = 3 := by simpa using m 3 (by norm_num)
  have ht : timesR rnd 1 2 1 = [0, 1, 2] := by
    have hc : ⌈(3:ℝ)⌉₊ = 3 := by exact_mod_cast Nat.ceil_natCast (R := ℝ) 3
    simp only [timesR, tGridR, arangeR]
    simp only [show (2 + 1 : ℝ) = 3 by norm_num, r3, div_one, r1, hc]
    simp [List.range_succ, r0, r1, r2]
  refine ⟨ht, by simp [ht], ?_⟩
  intro x hx
  simp only [List.mem_cons, List.not_mem_nil, or_false] at hx
  rcases hx with rfl | rfl | rfl
  · exact ⟨by norm_num, by simpa using int_mem (m := 3) (by norm_num)⟩
  · exact ⟨by norm_num, by simpa using int_mem (m := 5) (by norm_num)⟩
  · exact ⟨by norm_num, by simpa using int_mem (m := 4) (by norm_num)⟩

end AMAT.Props
