import Verif.Spec.TwoBody
import Verif.Lemmas.KeplerTime
import Mathlib.Analysis.ODE.ExistUnique
import Mathlib.Analysis.SpecialFunctions.Sqrt
import Mathlib.Analysis.Calculus.ContDiff.RCLike

/-
Two-body motions are determined by their initial state as long as they do not meet the centre.
-/

noncomputable section

open Real

namespace AMAT

/-- Position and velocity as a point of a normed space. -/
abbrev R6 := ℝ × ℝ × ℝ × ℝ × ℝ × ℝ

def toR6 (r u : V3) : R6 := (r.x, r.y, r.z, u.x, u.y, u.z)

/-- Squared distance from the centre. -/
def sqR6 (p : R6) : ℝ := p.1 ^ 2 + p.2.1 ^ 2 + p.2.2.1 ^ 2

/-- Right-hand side of the equations of two-body motion. -/
def twoBodyField (GM : ℝ) (p : R6) : R6 :=
  (p.2.2.2.1, p.2.2.2.2.1, p.2.2.2.2.2, -GM / √(sqR6 p) ^ 3 * p.1, -GM / √(sqR6 p) ^ 3 * p.2.1, -GM / √(sqR6 p) ^ 3 * p.2.2.1)

theorem twoBodyField_smooth (GM : ℝ) (p : R6) (hp : sqR6 p ≠ 0) : ContDiffAt ℝ 1 (twoBodyField GM) p := by
  have hq : ContDiffAt ℝ 1 sqR6 p := by unfold sqR6; fun_prop
  have hs : ContDiffAt ℝ 1 (fun p => √(sqR6 p)) p := hq.sqrt hp
  have hpos : 0 < sqR6 p := lt_of_le_of_ne (by unfold sqR6; positivity) (Ne.symm hp)
  have hk : ContDiffAt ℝ 1 (fun p => -GM / √(sqR6 p) ^ 3) p :=
    contDiffAt_const.div (hs.pow 3) (pow_ne_zero 3 (sqrt_pos.mpr hpos).ne')
  unfold twoBodyField
  have c1 : ContDiffAt ℝ 1 (fun p : R6 => p.1) p := by fun_prop
  have c2 : ContDiffAt ℝ 1 (fun p : R6 => p.2.1) p := by fun_prop
  have c3 : ContDiffAt ℝ 1 (fun p : R6 => p.2.2.1) p := by fun_prop
  have c4 : ContDiffAt ℝ 1 (fun p : R6 => p.2.2.2.1) p := by fun_prop
  have c5 : ContDiffAt ℝ 1 (fun p : R6 => p.2.2.2.2.1) p := by fun_prop
  have c6 : ContDiffAt ℝ 1 (fun p : R6 => p.2.2.2.2.2) p := by fun_prop
  exact c4.prodMk (c5.prodMk (c6.prodMk ((hk.mul c1).prodMk ((hk.mul c2).prodMk (hk.mul c3)))))

theorem sqR6_eq (r u : V3) : √(sqR6 (toR6 r u)) = V3.norm r := by
  symm
  apply V3.norm_eq_of_sq (sqrt_nonneg _)
  rw [sq_sqrt (by unfold sqR6; positivity)]
  simp only [sqR6, toR6, V3.dot]; ring

theorem motion_deriv {GM : ℝ} {R U : ℝ → V3} (h : Spec.TwoBodyMotion GM R U) (t : ℝ) :
    HasDerivAt (fun t => toR6 (R t) (U t)) (twoBodyField GM (toR6 (R t) (U t))) t := by
  obtain ⟨⟨x1, x2, x3⟩, y1, y2, y3⟩ := h t
  unfold twoBodyField
  rw [sqR6_eq]
  exact x1.prodMk (x2.prodMk (x3.prodMk (y1.prodMk (y2.prodMk y3))))

/-- Two-body motions that agree at one time agree at all times if the first one stays off the centre. -/
theorem twoBody_unique {GM : ℝ} {R U R' U' : ℝ → V3} (h : Spec.TwoBodyMotion GM R U) (h' : Spec.TwoBodyMotion GM R' U')
    (hpos : ∀ t, 0 < V3.norm (R t)) (t₀ : ℝ) (h1 : R t₀ = R' t₀) (h2 : U t₀ = U' t₀) : ∀ t, R t = R' t ∧ U t = U' t := by
  set y := fun t => toR6 (R t) (U t) with hy
  set y' := fun t => toR6 (R' t) (U' t) with hy'
  set u : Set ℝ := {t | ∀ᶠ s in nhds t, y s = y' s} with hu
  have hopen : IsOpen u := isOpen_setOfPred_eventually_nhds
  have hnear : ∀ t, y t = y' t → t ∈ u := by
    intro t he
    have hne : sqR6 (y t) ≠ 0 := by
      intro h0
      have := hpos t
      rw [← sqR6_eq (R t) (U t), show sqR6 (toR6 (R t) (U t)) = 0 from h0, sqrt_zero] at this
      exact lt_irrefl _ this
    obtain ⟨K, S, hS, hl⟩ := (twoBodyField_smooth GM (y t) hne).exists_lipschitzOnWith
    have d := fun s => motion_deriv h s
    have d' := fun s => motion_deriv h' s
    have n1 : ∀ᶠ s in nhds t, y s ∈ S := (d t).continuousAt hS
    have n2 : ∀ᶠ s in nhds t, y' s ∈ S := (d' t).continuousAt (by
      show S ∈ nhds (y' t)
      rw [← he]; exact hS)
    exact ODE_solution_unique_of_eventually (v := fun _ => twoBodyField GM) (s := fun _ => S)
      (Filter.Eventually.of_forall fun _ => hl) (n1.mono fun s hs => ⟨d s, hs⟩) (n2.mono fun s hs => ⟨d' s, hs⟩) he
  have hsub : Set.univ ⊆ u := by
    refine isPreconnected_univ.subset_of_closure_inter_subset hopen
      ⟨t₀, trivial, hnear t₀ (by simp only [hy, hy', h1, h2])⟩ ?_
    rintro t ⟨hc, -⟩
    apply hnear t
    have hfr : ∃ᶠ s in nhds t, y s = y' s := by
      rw [mem_closure_iff_frequently] at hc
      exact hc.mono fun s hs => (hs : ∀ᶠ x in nhds s, y x = y' x).self_of_nhds
    exact tendsto_nhds_unique_of_frequently_eq (motion_deriv h t).continuousAt (motion_deriv h' t).continuousAt hfr
  intro t
  have e : y t = y' t := (hsub (Set.mem_univ t) : ∀ᶠ s in nhds t, y s = y' s).self_of_nhds
  simp only [hy, hy', toR6, Prod.mk.injEq] at e
  obtain ⟨a1, a2, a3, a4, a5, a6⟩ := e
  exact ⟨V3.ext a1 a2 a3, V3.ext a4 a5 a6⟩

end AMAT
