import Mathlib.Tactic.Linarith
import Mathlib.Tactic.Ring
import Mathlib.Tactic.Positivity
import Verif.Spec.Trapz
import Verif.Model.Numpy

/-! Lemmas relating the running trapezoid sums of the model to the specification `Spec.trapz`. -/

noncomputable section

namespace AMAT

open Spec

theorem trapz_append (l1 : List (ℝ × ℝ)) (p : ℝ × ℝ) (l2 : List (ℝ × ℝ)) :
    trapz (l1 ++ p :: l2) = trapz (l1 ++ [p]) + trapz (p :: l2) := by
  induction l1 with
  | nil => simp [trapz]
  | cons a l1 ih =>
      cases l1 with
      | nil => simp [trapz]
      | cons b l1 =>
          simp only [List.cons_append, trapz] at ih ⊢
          rw [ih]; ring

theorem trapz_shift (l : List (ℝ × ℝ)) (c : ℝ) : trapz (l.map fun p => (p.1 + c, p.2)) = trapz l := by
  induction l with
  | nil => rfl
  | cons a l ih =>
      cases l with
      | nil => rfl
      | cons b l =>
          simp only [List.map_cons, trapz] at ih ⊢
          rw [ih]; ring

theorem trapz_nonneg {l : List (ℝ × ℝ)} (ht : l.Pairwise (fun p q => p.1 ≤ q.1)) (hy : ∀ p ∈ l, 0 ≤ p.2) :
    0 ≤ trapz l := by
  induction l with
  | nil => exact le_rfl
  | cons a l ih =>
      cases l with
      | nil => exact le_rfl
      | cons b l =>
          have h1 := ih (List.Pairwise.of_cons ht) (fun p hp => hy p (List.mem_cons_of_mem _ hp))
          have h2 : a.1 ≤ b.1 := List.rel_of_pairwise_cons ht (by simp)
          have h3 := hy a (by simp)
          have h4 := hy b (by simp)
          simp only [trapz]
          have : 0 ≤ (b.1 - a.1) * (a.2 + b.2) / 2 := by
            have : 0 ≤ b.1 - a.1 := by linarith
            positivity
          linarith

/-- The `i`-th running sum is the trapezoidal integral of the first `i+1` samples. -/
theorem cumsum_getElem? (acc : ℝ) (l : List (ℝ × ℝ)) (i : ℕ) (hi : i < l.length) :
    (acc :: trapzFrom acc l)[i]? = some (acc + trapz (l.take (i + 1))) := by
  induction l generalizing acc i with
  | nil => simp at hi
  | cons p l ih =>
      cases i with
      | zero => simp [trapz]
      | succ i =>
          cases l with
          | nil => simp at hi
          | cons q l =>
              have := ih (acc + (q.1 - p.1) * (p.2 + q.2) / 2) i (by simpa using hi)
              simp only [trapzFrom, List.getElem?_cons_succ, List.take_succ_cons, trapz] at this ⊢
              rw [this]
              congr 1
              ring

/-- Integral over a middle piece as a difference of running integrals. -/
theorem trapz_take_sub (l : List (ℝ × ℝ)) (i j : ℕ) (hij : i ≤ j) (hj : j < l.length) :
    trapz (l.take (j + 1)) - trapz (l.take (i + 1)) = trapz ((l.take (j + 1)).drop i) := by
  have hi : i < (l.take (j + 1)).length := by rw [List.length_take]; omega
  have h1 : l.take (j + 1) = (l.take (j + 1)).take i ++ (l.take (j + 1))[i] :: (l.take (j + 1)).drop (i + 1) := by
    conv_lhs => rw [← List.take_append_drop i (l.take (j + 1))]
    rw [List.drop_eq_getElem_cons hi]
  have h2 : l.take (i + 1) = (l.take (j + 1)).take i ++ [(l.take (j + 1))[i]] := by
    rw [← List.take_succ_eq_append_getElem hi, List.take_take, Nat.min_eq_left (by omega)]
  have h3 : (l.take (j + 1)).drop i = (l.take (j + 1))[i] :: (l.take (j + 1)).drop (i + 1) :=
    List.drop_eq_getElem_cons hi
  have h4 := trapz_append ((l.take (j + 1)).take i) (l.take (j + 1))[i] ((l.take (j + 1)).drop (i + 1))
  rw [← h1, ← h2, ← h3] at h4
  linarith

end AMAT
