import Verif.Lemmas.TwoBodyUnique
import Mathlib.MeasureTheory.Integral.IntervalIntegral.FundThmCalculus

/-
The time at which a two-body motion on an ellipse has a given true anomaly.
-/

noncomputable section

open Real

namespace AMAT

/-- Rate of time in the true anomaly: squared distance over angular momentum. -/
def anomalyRate (p e h t : ℝ) : ℝ := (p / (1 + e * cos t)) ^ 2 / h

/-- Time from the anomaly `t0` to the anomaly `t`. -/
def anomalyTime (p e h t0 t : ℝ) : ℝ := ∫ x in t0..t, anomalyRate p e h x

theorem anomaly_den {e : ℝ} (h0 : -1 < e) (h1 : e < 1) (t : ℝ) : 0 < 1 + e * cos t ∧ 1 + e * cos t < 2 := by
  have := cos_le_one t; have := neg_one_le_cos t
  rcases le_or_gt 0 e with h | h <;> constructor <;> nlinarith

theorem anomalyTime_start (p e h t0 : ℝ) : anomalyTime p e h t0 t0 = 0 := by
  unfold anomalyTime; exact intervalIntegral.integral_same

theorem anomalyRate_cont (p h : ℝ) {e : ℝ} (h0 : -1 < e) (h1 : e < 1) : Continuous (anomalyRate p e h) := by
  unfold anomalyRate
  refine Continuous.div_const (Continuous.pow (continuous_const.div (by fun_prop) fun t => ?_) 2) _
  exact (anomaly_den h0 h1 t).1.ne'

theorem anomalyTime_deriv (p h : ℝ) {e : ℝ} (h0 : -1 < e) (h1 : e < 1) (t0 t : ℝ) :
    HasDerivAt (anomalyTime p e h t0) (anomalyRate p e h t) t := by
  have hc := anomalyRate_cont p h h0 h1
  exact intervalIntegral.integral_hasDerivAt_right (hc.intervalIntegrable _ _) (hc.stronglyMeasurableAtFilter _ _) hc.continuousAt

section
variable {p e h : ℝ} (hp : 0 < p) (h0 : -1 < e) (h1 : e < 1) (hh : 0 < h)
include hp h0 h1 hh

theorem anomalyRate_pos (t : ℝ) : (p / 2) ^ 2 / h ≤ anomalyRate p e h t := by
  obtain ⟨d0, d1⟩ := anomaly_den h0 h1 t
  unfold anomalyRate
  gcongr

theorem anomalyTime_mono (t0 : ℝ) : StrictMono (anomalyTime p e h t0) := by
  apply strictMono_of_deriv_pos
  intro t
  rw [(anomalyTime_deriv p h h0 h1 t0 t).deriv]
  exact lt_of_lt_of_le (by positivity) (anomalyRate_pos hp h0 h1 hh t)

theorem anomalyTime_surj (t0 : ℝ) : Function.Surjective (anomalyTime p e h t0) := by
  set c := (p / 2) ^ 2 / h with hc
  have hc0 : 0 < c := by positivity
  have hm : Monotone fun t => anomalyTime p e h t0 t - c * t := by
    have hd : ∀ t, HasDerivAt (fun t => anomalyTime p e h t0 t - c * t) (anomalyRate p e h t - c) t := fun t => by
      simpa using (anomalyTime_deriv p h h0 h1 t0 t).fun_sub ((hasDerivAt_id t).const_mul c)
    refine monotone_of_deriv_nonneg (fun t => (hd t).differentiableAt) fun t => ?_
    rw [(hd t).deriv]
    linarith [anomalyRate_pos hp h0 h1 hh t]
  have hcont : Continuous (anomalyTime p e h t0) :=
    continuous_iff_continuousAt.mpr fun t => (anomalyTime_deriv p h h0 h1 t0 t).continuousAt
  have hz := anomalyTime_start p e h t0
  intro y
  have hl : anomalyTime p e h t0 (t0 - |y| / c) ≤ y := by
    have := hm (show t0 - |y| / c ≤ t0 by have : 0 ≤ |y| / c := by positivity
                                          linarith)
    simp only [hz] at this
    have e1 : c * (t0 - |y| / c) = c * t0 - |y| := by field_simp
    rw [e1] at this
    linarith [neg_abs_le y]
  have hr : y ≤ anomalyTime p e h t0 (t0 + |y| / c) := by
    have := hm (show t0 ≤ t0 + |y| / c by have : 0 ≤ |y| / c := by positivity
                                          linarith)
    simp only [hz] at this
    have e1 : c * (t0 + |y| / c) = c * t0 + |y| := by field_simp
    rw [e1] at this
    linarith [le_abs_self y]
  obtain ⟨x, -, hx⟩ := intermediate_value_Icc (show t0 - |y| / c ≤ t0 + |y| / c by
    have : 0 ≤ |y| / c := by positivity
    linarith) hcont.continuousOn ⟨hl, hr⟩
  exact ⟨x, hx⟩

end

/-- From every point of an ellipse there is a motion, and every motion from there is at every other point at the time given by
the anomaly. -/
theorem conic_clock {GM h e : ℝ} {u w : V3} (hGM : 0 < GM) (hh : 0 < h) (h0 : -1 < e) (h1 : e < 1) (hu : V3.dot u u = 1)
    (hw : V3.dot w w = 1) (huw : V3.dot u w = 0) (t0 : ℝ) :
    (∃ R U, Spec.TwoBodyMotion GM R U ∧ R 0 = cPos (h ^ 2 / GM) e u (V3.cross w u) t0 ∧
      U 0 = cVel (GM / h) e u (V3.cross w u) t0) ∧
    ∀ R U, Spec.TwoBodyMotion GM R U → R 0 = cPos (h ^ 2 / GM) e u (V3.cross w u) t0 →
      U 0 = cVel (GM / h) e u (V3.cross w u) t0 → ∀ t,
      R (anomalyTime (h ^ 2 / GM) e h t0 t) = cPos (h ^ 2 / GM) e u (V3.cross w u) t ∧
      U (anomalyTime (h ^ 2 / GM) e h t0 t) = cVel (GM / h) e u (V3.cross w u) t := by
  set p := h ^ 2 / GM with hpd
  have hp : 0 < p := div_pos (by positivity) hGM
  set T := anomalyTime p e h t0 with hT
  have hmono := anomalyTime_mono hp h0 h1 hh t0
  set I := StrictMono.orderIsoOfSurjective T hmono (anomalyTime_surj hp h0 h1 hh t0) with hI
  set θ : ℝ → ℝ := fun s => I.symm s with hθ
  have hTθ : ∀ s, T (θ s) = s := fun s => I.apply_symm_apply s
  have hθT : ∀ x, θ (T x) = x := fun x => hmono.injective (hTθ (T x))
  have hθc : Continuous θ := I.symm.continuous
  have hrate : ∀ x, 0 < anomalyRate p e h x := fun x => lt_of_lt_of_le (by positivity) (anomalyRate_pos hp h0 h1 hh x)
  have hθd : ∀ s, HasDerivAt θ (anomalyRate p e h (θ s))⁻¹ s := fun s =>
    HasDerivAt.of_local_left_inverse hθc.continuousAt (anomalyTime_deriv p h h0 h1 t0 _) (hrate _).ne'
      (Filter.Eventually.of_forall fun x => hTθ x)
  have hnorm : ∀ x, V3.norm (cPos p e u (V3.cross w u) x) = p / (1 + e * cos x) := fun x =>
    (conic_state (r := p / (1 + e * cos x)) hGM hh hu hw huw (anomaly_den h0 h1 x).1 rfl rfl rfl).2.1
  have hk : Spec.TwoBodyMotion GM (fun s => cPos p e u (V3.cross w u) (θ s)) (fun s => cVel (GM / h) e u (V3.cross w u) (θ s)) := by
    intro s
    have h2 := conic_twoBody (t := θ s) hGM hh hu hw huw (anomaly_den h0 h1 _).1
    unfold Spec.TwoBodyAt at h2
    rw [← hpd, hnorm, show (p / (1 + e * cos (θ s))) ^ 2 / h = anomalyRate p e h (θ s) from rfl] at h2
    obtain ⟨⟨x1, x2, x3⟩, y1, y2, y3⟩ := h2
    have hi : ∀ c : ℝ, anomalyRate p e h (θ s) * c * (anomalyRate p e h (θ s))⁻¹ = c := fun c => by
      have := (hrate (θ s)).ne'
      field_simp
    simp only [hnorm]
    refine ⟨⟨?_, ?_, ?_⟩, ?_, ?_, ?_⟩
    · exact (HasDerivAt.comp s x1 (hθd s)).congr_deriv (by simp only [V3.smul_x]; exact hi _)
    · exact (HasDerivAt.comp s x2 (hθd s)).congr_deriv (by simp only [V3.smul_y]; exact hi _)
    · exact (HasDerivAt.comp s x3 (hθd s)).congr_deriv (by simp only [V3.smul_z]; exact hi _)
    · exact (HasDerivAt.comp s y1 (hθd s)).congr_deriv (by simp only [V3.smul_x]; exact hi _)
    · exact (HasDerivAt.comp s y2 (hθd s)).congr_deriv (by simp only [V3.smul_y]; exact hi _)
    · exact (HasDerivAt.comp s y3 (hθd s)).congr_deriv (by simp only [V3.smul_z]; exact hi _)
  have hz : θ 0 = t0 := by rw [← anomalyTime_start p e h t0]; exact hθT t0
  refine ⟨⟨_, _, hk, by simp only [hz], by simp only [hz]⟩, fun R U hm hR hU t => ?_⟩
  have huniq := twoBody_unique hk hm (fun s => by
    rw [hnorm]; exact div_pos hp (anomaly_den h0 h1 _).1) 0 (by simp only [hz, hR]) (by simp only [hz, hU]) (T t)
  simp only [hθT] at huniq
  exact ⟨huniq.1.symm, huniq.2.symm⟩

end AMAT
