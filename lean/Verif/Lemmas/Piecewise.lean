import Mathlib.Order.Monotone.Union
import Mathlib.Analysis.Calculus.Deriv.MeanValue
import Mathlib.Analysis.ODE.Gronwall

/-
Monotone and vanishing functions whose derivative is known except at finitely many points.
-/

namespace AMAT.Piecewise

/-- A continuous function on an interval that is antitone on every subinterval free of the finitely many points of `S`
is antitone. -/
theorem antitoneOn_off (f : ℝ → ℝ) (S : Finset ℝ) : ∀ (a b : ℝ), ContinuousOn f (Set.Icc a b) →
    (∀ t ∈ Set.Ioo a b, t ∉ S → ∃ d ≤ 0, HasDerivAt f d t) → AntitoneOn f (Set.Icc a b) := by
  induction S using Finset.induction_on with
  | empty =>
    intro a b hc hd
    apply antitoneOn_of_deriv_nonpos (convex_Icc a b) hc
    · intro t ht
      rw [interior_Icc] at ht
      obtain ⟨d, -, h⟩ := hd t ht (by simp)
      exact h.differentiableAt.differentiableWithinAt
    · intro t ht
      rw [interior_Icc] at ht
      obtain ⟨d, h0, h⟩ := hd t ht (by simp)
      rw [h.deriv]; exact h0
  | insert c S hcS ih =>
    intro a b hc hd
    by_cases hm : c ∈ Set.Ioo a b
    · have h1 := ih a c (hc.mono (Set.Icc_subset_Icc_right hm.2.le)) fun t ht hs =>
        hd t ⟨ht.1, ht.2.trans hm.2⟩ (by simp [hs, ht.2.ne])
      have h2 := ih c b (hc.mono (Set.Icc_subset_Icc_left hm.1.le)) fun t ht hs =>
        hd t ⟨hm.1.trans ht.1, ht.2⟩ (by simp [hs, ht.1.ne'])
      have := AntitoneOn.union_right h1 h2 (isGreatest_Icc hm.1.le) (isLeast_Icc hm.2.le)
      rwa [Set.Icc_union_Icc_eq_Icc hm.1.le hm.2.le] at this
    · exact ih a b hc fun t ht hs => hd t ht (by
        simp only [Finset.mem_insert, not_or]
        exact ⟨fun h => hm (h ▸ ht), hs⟩)

/-- The strict version. -/
theorem strictAntiOn_off (f : ℝ → ℝ) (S : Finset ℝ) : ∀ (a b : ℝ), ContinuousOn f (Set.Icc a b) →
    (∀ t ∈ Set.Ioo a b, t ∉ S → ∃ d < 0, HasDerivAt f d t) → StrictAntiOn f (Set.Icc a b) := by
  induction S using Finset.induction_on with
  | empty =>
    intro a b hc hd
    apply strictAntiOn_of_deriv_neg (convex_Icc a b) hc
    intro t ht
    rw [interior_Icc] at ht
    obtain ⟨d, h0, h⟩ := hd t ht (by simp)
    rw [h.deriv]; exact h0
  | insert c S hcS ih =>
    intro a b hc hd
    by_cases hm : c ∈ Set.Ioo a b
    · have h1 := ih a c (hc.mono (Set.Icc_subset_Icc_right hm.2.le)) fun t ht hs =>
        hd t ⟨ht.1, ht.2.trans hm.2⟩ (by simp [hs, ht.2.ne])
      have h2 := ih c b (hc.mono (Set.Icc_subset_Icc_left hm.1.le)) fun t ht hs =>
        hd t ⟨hm.1.trans ht.1, ht.2⟩ (by simp [hs, ht.1.ne'])
      have := StrictAntiOn.union h1 h2 (isGreatest_Icc hm.1.le) (isLeast_Icc hm.2.le)
      rwa [Set.Icc_union_Icc_eq_Icc hm.1.le hm.2.le] at this
    · exact ih a b hc fun t ht hs => hd t ht (by
        simp only [Finset.mem_insert, not_or]
        exact ⟨fun h => hm (h ▸ ht), hs⟩)

/-- A continuous function with zero derivative off finitely many points is constant. -/
theorem constant_off (f : ℝ → ℝ) (S : Finset ℝ) (a b : ℝ) (hc : ContinuousOn f (Set.Icc a b))
    (hd : ∀ t ∈ Set.Ioo a b, t ∉ S → HasDerivAt f 0 t) : ∀ t ∈ Set.Icc a b, f t = f a := by
  intro t ht
  have h1 := antitoneOn_off f S a b hc (fun t ht hs => ⟨0, le_rfl, hd t ht hs⟩)
  have h2 := antitoneOn_off (fun t => -f t) S a b hc.neg
    (fun t ht hs => ⟨0, le_rfl, by simpa using (hd t ht hs).fun_neg⟩)
  have ha : a ∈ Set.Icc a b := ⟨le_rfl, ht.1.trans ht.2⟩
  have e1 := h1 ha ht ht.1
  have e2 := h2 ha ht ht.1
  simp only [neg_le_neg_iff] at e2
  exact le_antisymm e1 e2

/-- A continuous function that vanishes at `a` and whose derivative is bounded by a multiple of its norm, off finitely
many points, vanishes. -/
theorem zero_off {E : Type*} [NormedAddCommGroup E] [NormedSpace ℝ E] (f f' : ℝ → E) (K : ℝ) (S : Finset ℝ) :
    ∀ (a b : ℝ), ContinuousOn f (Set.Icc a b) → f a = 0 →
    (∀ t ∈ Set.Ioo a b, t ∉ S → HasDerivAt f (f' t) t ∧ ‖f' t‖ ≤ K * ‖f t‖) → ∀ t ∈ Set.Icc a b, f t = 0 := by
  induction S using Finset.induction_on with
  | empty =>
    intro a b hc h0 hd t ht
    rcases ht.1.eq_or_lt with rfl | hat
    · exact h0
    -- Grönwall's inequality from every later time, and the limit of these times
    have key : ∀ c ∈ Set.Ioo a t, ‖f t‖ ≤ gronwallBound ‖f c‖ K 0 (t - c) := by
      intro c hct
      refine norm_le_gronwallBound_of_norm_deriv_right_le (f := f) (f' := f') (a := c) (b := t)
        (hc.mono (Set.Icc_subset_Icc hct.1.le ht.2)) ?_ le_rfl ?_ t ⟨hct.2.le, le_rfl⟩
      · intro x hx
        exact (hd x ⟨hct.1.trans_le hx.1, hx.2.trans_le ht.2⟩ (by simp)).1.hasDerivWithinAt
      · intro x hx
        rw [add_zero]
        exact (hd x ⟨hct.1.trans_le hx.1, hx.2.trans_le ht.2⟩ (by simp)).2
    have hlim : Filter.Tendsto (fun c => ‖f c‖ * Real.exp (K * (t - c))) (nhdsWithin a (Set.Ioo a t))
        (nhds (‖f a‖ * Real.exp (K * (t - a)))) := by
      have h1 : Filter.Tendsto f (nhdsWithin a (Set.Ioo a t)) (nhds (f a)) :=
        (hc a ⟨le_rfl, ht.1.trans ht.2⟩).mono_left
          (nhdsWithin_mono _ (Set.Ioo_subset_Icc_self.trans (Set.Icc_subset_Icc_right ht.2)))
      have h2 : Filter.Tendsto (fun c : ℝ => Real.exp (K * (t - c))) (nhdsWithin a (Set.Ioo a t))
          (nhds (Real.exp (K * (t - a)))) := by
        have : Continuous fun c : ℝ => Real.exp (K * (t - c)) := by fun_prop
        exact this.continuousWithinAt.tendsto
      exact h1.norm.mul h2
    rw [h0, norm_zero, zero_mul] at hlim
    have hne : (nhdsWithin a (Set.Ioo a t)).NeBot := by
      rw [nhdsWithin_Ioo_eq_nhdsGT hat]; infer_instance
    have : ‖f t‖ ≤ 0 := by
      refine ge_of_tendsto hlim ?_
      filter_upwards [self_mem_nhdsWithin] with c hct
      have := key c hct
      rwa [gronwallBound_ε0] at this
    exact norm_le_zero_iff.mp this
  | insert c S hcS ih =>
    intro a b hc h0 hd
    by_cases hm : c ∈ Set.Ioo a b
    · have h1 := ih a c (hc.mono (Set.Icc_subset_Icc_right hm.2.le)) h0 fun t ht hs =>
        hd t ⟨ht.1, ht.2.trans hm.2⟩ (by simp [hs, ht.2.ne])
      have h2 := ih c b (hc.mono (Set.Icc_subset_Icc_left hm.1.le)) (h1 c ⟨hm.1.le, le_rfl⟩) fun t ht hs =>
        hd t ⟨hm.1.trans ht.1, ht.2⟩ (by simp [hs, ht.1.ne'])
      intro t ht
      rcases le_total t c with h | h
      · exact h1 t ⟨ht.1, h⟩
      · exact h2 t ⟨h, ht.2⟩
    · exact ih a b hc h0 fun t ht hs => hd t ht (by
        simp only [Finset.mem_insert, not_or]
        exact ⟨fun h => hm (h ▸ ht), hs⟩)

end AMAT.Piecewise
