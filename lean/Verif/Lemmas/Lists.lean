import Mathlib.Tactic.Linarith
import Mathlib.Data.List.TakeWhile
import Verif.Model.Numpy

/-! Helper lemmas about the NumPy fragment: maxima, minima, first true index, trapezoid sums. -/

noncomputable section

open Classical

namespace AMAT

theorem foldl_max_ge (l : List ℝ) (a : ℝ) : a ≤ l.foldl max a ∧ ∀ x ∈ l, x ≤ l.foldl max a := by
  induction l generalizing a with
  | nil => simp
  | cons b l ih =>
      obtain ⟨h1, h2⟩ := ih (max a b)
      refine ⟨le_trans (le_max_left a b) h1, ?_⟩
      intro x hx
      rcases List.mem_cons.mp hx with rfl | hx
      · exact le_trans (le_max_right a x) h1
      · exact h2 x hx

theorem foldl_max_mem (l : List ℝ) (a : ℝ) : l.foldl max a = a ∨ l.foldl max a ∈ l := by
  induction l generalizing a with
  | nil => simp
  | cons b l ih =>
      rcases ih (max a b) with h | h
      · simp only [List.foldl_cons, h]
        rcases max_choice a b with hm | hm <;> rw [hm]
        · exact Or.inl rfl
        · exact Or.inr (by simp)
      · exact Or.inr (List.mem_cons_of_mem _ h)

theorem foldl_min_le (l : List ℝ) (a : ℝ) : l.foldl min a ≤ a ∧ ∀ x ∈ l, l.foldl min a ≤ x := by
  induction l generalizing a with
  | nil => simp
  | cons b l ih =>
      obtain ⟨h1, h2⟩ := ih (min a b)
      refine ⟨le_trans h1 (min_le_left a b), ?_⟩
      intro x hx
      rcases List.mem_cons.mp hx with rfl | hx
      · exact le_trans h1 (min_le_right a x)
      · exact h2 x hx

theorem foldl_min_mem (l : List ℝ) (a : ℝ) : l.foldl min a = a ∨ l.foldl min a ∈ l := by
  induction l generalizing a with
  | nil => simp
  | cons b l ih =>
      rcases ih (min a b) with h | h
      · simp only [List.foldl_cons, h]
        rcases min_choice a b with hm | hm <;> rw [hm]
        · exact Or.inl rfl
        · exact Or.inr (by simp)
      · exact Or.inr (List.mem_cons_of_mem _ h)

/-- `max` of a non-empty list is its greatest element. -/
theorem pyMax_spec {l : List ℝ} (h : l ≠ []) : ∃ m, pyMax l = .ok m ∧ m ∈ l ∧ ∀ x ∈ l, x ≤ m := by
  cases l with
  | nil => exact absurd rfl h
  | cons a l =>
      refine ⟨_, rfl, ?_, ?_⟩
      · rcases foldl_max_mem l a with h | h
        · rw [h]; simp
        · exact List.mem_cons_of_mem _ h
      · intro x hx
        rcases List.mem_cons.mp hx with rfl | hx
        · exact (foldl_max_ge l x).1
        · exact (foldl_max_ge l a).2 x hx

/-- `min` of a non-empty list is its least element. -/
theorem pyMin_spec {l : List ℝ} (h : l ≠ []) : ∃ m, pyMin l = .ok m ∧ m ∈ l ∧ ∀ x ∈ l, m ≤ x := by
  cases l with
  | nil => exact absurd rfl h
  | cons a l =>
      refine ⟨_, rfl, ?_, ?_⟩
      · rcases foldl_min_mem l a with h | h
        · rw [h]; simp
        · exact List.mem_cons_of_mem _ h
      · intro x hx
        rcases List.mem_cons.mp hx with rfl | hx
        · exact (foldl_min_le l x).1
        · exact (foldl_min_le l a).2 x hx

theorem findIdx_map_id (l : List ℝ) (p : ℝ → Bool) :
    (l.map p).findIdx (fun x => x) = l.findIdx p := by
  induction l with
  | nil => rfl
  | cons a l ih => simp [List.findIdx_cons, ih]

/-- The index returned by `argmax` of a boolean test: nothing before it passes the test, and if anything passes
then the element at the index does. -/
theorem argmaxBool_spec (l : List ℝ) (p : ℝ → Prop) [DecidablePred p] :
    (∀ x ∈ l.take (argmaxBool (l.map fun x => decide (p x))), ¬ p x) ∧
    ((∃ x ∈ l, p x) → ∃ h : argmaxBool (l.map fun x => decide (p x)) < l.length,
      p (l[argmaxBool (l.map fun x => decide (p x))])) ∧
    (¬ (∃ x ∈ l, p x) → argmaxBool (l.map fun x => decide (p x)) = 0) ∧
    argmaxBool (l.map fun x => decide (p x)) ≤ l.length := by
  by_cases hex : ∃ x ∈ l, p x
  · have hm : true ∈ l.map fun x => decide (p x) := by
      obtain ⟨x, hx, hp⟩ := hex
      exact List.mem_map.mpr ⟨x, hx, by simp [hp]⟩
    have e : argmaxBool (l.map fun x => decide (p x)) = l.findIdx (fun x => decide (p x)) := by
      simp only [argmaxBool, if_pos hm]
      exact findIdx_map_id l (fun x => decide (p x))
    have hlt : l.findIdx (fun x => decide (p x)) < l.length := by
      apply List.findIdx_lt_length_of_exists
      obtain ⟨x, hx, hp⟩ := hex
      exact ⟨x, hx, by simp [hp]⟩
    refine ⟨?_, ?_, fun h => absurd hex h, ?_⟩
    · rw [e]
      intro x hx
      obtain ⟨i, hi, rfl⟩ := List.mem_iff_getElem.mp hx
      rw [List.getElem_take]
      have hi' : i < l.findIdx (fun x => decide (p x)) := by
        rw [List.length_take] at hi; omega
      have := List.not_of_lt_findIdx hi'
      simpa using this
    · intro _
      refine ⟨by rw [e]; exact hlt, ?_⟩
      have := List.findIdx_getElem (w := hlt)
      simp only [e]
      simpa using this
    · rw [e]; exact hlt.le
  · have hm : true ∉ l.map fun x => decide (p x) := by
      intro h
      obtain ⟨x, hx, hp⟩ := List.mem_map.mp h
      exact hex ⟨x, hx, by simpa using hp⟩
    have e : argmaxBool (l.map fun x => decide (p x)) = 0 := by simp only [argmaxBool, if_neg hm]
    refine ⟨by rw [e]; simp, fun h => absurd h hex, fun _ => e, by rw [e]; simp⟩

end AMAT
